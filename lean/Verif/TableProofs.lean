import Verif.Table
/-! Proofs about the table model. -/
namespace Verif.Tab
open Verif.Msg (R Err assert)

variable {α : Type} [Zero α]

theorem mask_toNat (k x : Nat) (hk : k ≤ 32) (hx : x < 2 ^ 32) :
    (BitVec.ofNat 32 x &&& ~~~ BitVec.ofNat 32 (2 ^ k - 1)).toNat = x / 2 ^ k * 2 ^ k := by
  apply Nat.eq_of_testBit_eq
  intro i
  rw [BitVec.toNat_and, Nat.testBit_and, BitVec.testBit_toNat, BitVec.testBit_toNat, BitVec.getLsbD_not,
    BitVec.getLsbD_ofNat, BitVec.getLsbD_ofNat, Nat.testBit_mul_two_pow, Nat.testBit_div_two_pow,
    Nat.testBit_two_pow_sub_one]
  by_cases h : i < 32
  · by_cases hik : i < k
    · simp [h, hik, Nat.not_le.2 hik]
    · have : k ≤ i := by omega
      simp [h, hik, this]
  · have hlt : x < 2 ^ i := Nat.lt_of_lt_of_le hx (Nat.pow_le_pow_right (by omega) (by omega))
    have : x.testBit i = false := Nat.testBit_lt_two_pow hlt
    simp [h]
    intro hki
    rw [show i - k + k = i by omega]
    simpa using this

theorem up_eq (k n : Nat) (hk : k ≤ 32) (h : n + 2 ^ k ≤ 2 ^ 32) : up k n = (n + (2 ^ k - 1)) / 2 ^ k * 2 ^ k := by
  unfold up
  have h0 : 0 < 2 ^ k := Nat.two_pow_pos k
  rw [← BitVec.ofNat_add, mask_toNat k _ hk (by omega)]

/-- the usable size is the least multiple of the lane count that is at least the length -/
theorem up_spec (k n : Nat) (hk : k ≤ 32) (h : n + 2 ^ k ≤ 2 ^ 32) :
    n ≤ up k n ∧ up k n < n + 2 ^ k ∧ up k n % 2 ^ k = 0 := by
  rw [up_eq k n hk h]
  have h0 : 0 < 2 ^ k := Nat.two_pow_pos k
  generalize 2 ^ k = N at *
  have h1 := Nat.div_add_mod (n + (N - 1)) N
  have h2 := Nat.mod_lt (n + (N - 1)) h0
  rw [Nat.mul_comm] at h1
  refine ⟨by omega, by omega, Nat.mul_mod_left _ _⟩

theorem alignDown_spec (k n : Nat) (hk : k ≤ 32) (h : n < 2 ^ 32) :
    alignDown k n ≤ n ∧ n < alignDown k n + 2 ^ k ∧ alignDown k n % 2 ^ k = 0 := by
  unfold alignDown
  rw [mask_toNat k n hk h]
  have h0 : 0 < 2 ^ k := Nat.two_pow_pos k
  generalize 2 ^ k = N at *
  have h1 := Nat.div_add_mod n N
  have h2 := Nat.mod_lt n h0
  rw [Nat.mul_comm] at h1
  refine ⟨by omega, by omega, Nat.mul_mod_left _ _⟩

/-- what holds of every table made by `hTable_init`, `hTable_initWithData` and `hTable_resize` -/
structure Ok (k : Nat) (T : Table α) : Prop where
  owned : T.owned = true
  align : T.size % 2 ^ k = 0
  alloc : T.allocated = T.size + 2 ^ k
  room : T.size ≤ T.buf.length
  small : T.size + 2 ^ k < 2 ^ 30

/-- as `Ok`, and everything that `allocated` promises is really there -/
structure Full (k : Nat) (T : Table α) : Prop extends Ok k T where
  full : T.buf.length = T.allocated

theorem clearRange_ok {b : List α} {o n : Nat} (h : o + n ≤ b.length) :
    clearRange b o n = .ok (b.take o ++ List.replicate n 0 ++ b.drop (o + n)) := if_pos h
theorem copyInto_ok {d s : List α} {n : Nat} (h : n ≤ d.length) (h' : n ≤ s.length) :
    copyInto d s n = .ok (s.take n ++ d.drop n) := if_pos ⟨h, h'⟩

theorem malloc_length (junk : Nat → α) (n : Nat) : (malloc junk n).length = n := by simp [malloc]
theorem realloc_length (junk : Nat → α) (b : List α) (n : Nat) : (realloc junk b n).length = n := by
  simp [realloc]; omega

theorem realloc_get (junk : Nat → α) (b : List α) (n i : Nat) (h : i < n) (h' : i < b.length) :
    (realloc junk b n)[i]? = b[i]? := by
  unfold realloc
  rw [List.getElem?_append_left (by simp; omega), List.getElem?_take_of_lt h]

theorem resizeBuf_spec (A : Alloc α) {buf : List α} {size ns na : Nat} (h1 : size ≤ buf.length)
    (hs : na < 2 ^ 30) (hs' : size < 2 ^ 30) (hns : ns ≤ na) (hshr : ¬ size < ns → na ≤ size) :
    ∃ b, resizeBuf A buf size ns na (size * 4) (na * 4) = .ok b ∧ b.length = na ∧
      (∀ i, i < size → i < na → b[i]? = buf[i]?) ∧ (∀ i, size ≤ i → i < na → b[i]? = some 0) := by
  unfold resizeBuf
  rw [Nat.mul_div_cancel _ (by decide : 0 < 4), Nat.mul_div_cancel _ (by decide : 0 < 4)]
  generalize hb : realloc A.junk buf na = b
  have hbl : b.length = na := by rw [← hb, realloc_length]
  have hbg : ∀ i, i < size → i < na → b[i]? = buf[i]? := fun i h1 h2 => by
    rw [← hb, realloc_get _ _ _ _ h2 (by omega)]
  have clr : ∀ c : List α, c.length = na → size < na →
      (∀ i, i < size → i < na → c[i]? = buf[i]?) →
      ∃ b', clearRange c size (na - size) = .ok b' ∧
      b'.length = na ∧ (∀ i, i < size → i < na → b'[i]? = buf[i]?) ∧
      (∀ i, size ≤ i → i < na → b'[i]? = some 0) := by
    intro c hc hlt hg
    rw [clearRange_ok (by omega)]
    refine ⟨_, rfl, by simp; omega, fun i h1 h2 => ?_, fun i h1 h2 => ?_⟩
    · rw [List.append_assoc, List.getElem?_append_left (by simp; omega), List.getElem?_take_of_lt h1, hg i h1 h2]
    · rw [List.append_assoc, List.getElem?_append_right (by simp; omega), List.getElem?_append_left (by simp; omega),
        List.getElem?_replicate, if_pos (by simp; omega)]
  simp only
  by_cases ha : A.aligned = true
  · rw [if_pos ha]
    by_cases hg : ns > size
    · rw [if_pos hg, show (na + 2 ^ 32 - size) % 2 ^ 32 = na - size by omega]
      exact clr b hbl (by omega) hbg
    · rw [if_neg hg]
      have := hshr (by omega)
      exact ⟨b, rfl, hbl, hbg, fun i h1 h2 => by omega⟩
  · rw [if_neg ha]
    by_cases hg : na * 4 > size * 4
    · rw [if_pos hg, copyInto_ok (by rw [malloc_length]; omega) (by omega)]
      simp only [bind, Except.bind]
      rw [show (na * 4 - size * 4) / 4 = na - size by omega]
      refine clr _ (by simp [malloc_length]; omega) (by omega) fun i h1 h2 => ?_
      rw [List.getElem?_append_left (by simp; omega), List.getElem?_take_of_lt h1, hbg i h1 h2]
    · rw [if_neg hg, copyInto_ok (by rw [malloc_length]; omega) (by omega)]
      refine ⟨_, rfl, by simp [malloc_length]; omega, fun i h1 h2 => ?_, fun i h1 h2 => by omega⟩
      rw [List.getElem?_append_left (by simp; omega), List.getElem?_take_of_lt h2, hbg i h1 h2]

/-- shrinking goes by at least one vector -/
theorem mult_lt {N a b : Nat} (h0 : 0 < N) (ha : a % N = 0) (hb : b % N = 0) (h : a < b) : a + N ≤ b := by
  obtain ⟨x, rfl⟩ := Nat.dvd_of_mod_eq_zero ha
  obtain ⟨y, rfl⟩ := Nat.dvd_of_mod_eq_zero hb
  have : x < y := Nat.lt_of_mul_lt_mul_left h
  have := Nat.mul_le_mul_left N this
  rw [Nat.mul_succ] at this
  exact this

/-- `hTable_resize` does not fault, and what the buffer holds afterwards -/
theorem resize_spec {k : Nat} (hk : k ≤ 28) (A : Alloc α) {T : Table α} (hT : Ok k T) {n : Nat}
    (hn : n + 2 * 2 ^ k < 2 ^ 30) :
    ∃ T', resize k A T n = .ok T' ∧ T'.size = up k n ∧ T'.head = T.head ∧
      (up k n = T.size → T' = T) ∧
      (up k n ≠ T.size → T'.length = n ∧ Full k T' ∧
        (∀ i, i < T.size → i < T'.allocated → T'.buf[i]? = T.buf[i]?) ∧
        (∀ i, T.size ≤ i → i < T'.allocated → T'.buf[i]? = some 0)) := by
  have h0 : 0 < 2 ^ k := Nat.two_pow_pos k
  obtain ⟨u1, u2, u3⟩ := up_spec k n (by omega) (by omega)
  obtain ⟨o1, o2, o3, o4, o5⟩ := hT
  unfold resize
  simp only [bind, Except.bind]
  by_cases hs : up k n = T.size
  · rw [if_pos hs]
    exact ⟨T, rfl, hs.symm, rfl, fun _ => rfl, fun h => absurd hs h⟩
  · rw [if_neg hs, if_neg (by rw [o1]; decide)]
    generalize hN : 2 ^ k = N at *
    have e1 : (up k n + N) % 2 ^ 32 = up k n + N := Nat.mod_eq_of_lt (by omega)
    have e2 : (up k n + N) * 4 % 2 ^ 32 = (up k n + N) * 4 := Nat.mod_eq_of_lt (by omega)
    have e3 : T.size * 4 % 2 ^ 32 = T.size * 4 := Nat.mod_eq_of_lt (by omega)
    rw [e1, e2, e3]
    obtain ⟨b, f1, f2, f3, f4⟩ := resizeBuf_spec A (ns := up k n) (na := up k n + N) o4 (by omega) (by omega) (by omega)
      (fun h => mult_lt h0 u3 o2 (by omega))
    rw [f1]
    refine ⟨_, rfl, rfl, rfl, fun h => absurd h hs, fun _ => ⟨rfl, ⟨⟨o1, ?_, ?_, ?_, ?_⟩, f2⟩, f3, f4⟩⟩
    · rw [hN]; exact u3
    · rw [hN]
    · simp only; omega
    · rw [hN]; simp only; omega

theorem init_spec {k : Nat} (hk : k ≤ 28) (junk : Nat → α) {n : Nat} (hn : n + 2 * 2 ^ k < 2 ^ 30) :
    ∃ T, init k junk n = .ok T ∧ Full k T ∧ T.length = n ∧ T.size = up k n ∧ T.buf = List.replicate (up k n + 2 ^ k) 0 := by
  have h0 : 0 < 2 ^ k := Nat.two_pow_pos k
  obtain ⟨u1, u2, u3⟩ := up_spec k n (by omega) (by omega)
  have e1 : (up k n + 2 ^ k) % 2 ^ 32 = up k n + 2 ^ k := Nat.mod_eq_of_lt (by omega)
  simp only [init, bind, Except.bind, e1]
  rw [clearRange_ok (by rw [malloc_length]; omega)]
  have : (malloc junk (up k n + 2 ^ k)).take 0 ++ List.replicate (up k n + 2 ^ k) (0 : α)
      ++ (malloc junk (up k n + 2 ^ k)).drop (0 + (up k n + 2 ^ k)) = List.replicate (up k n + 2 ^ k) 0 := by
    simp [List.drop_of_length_le, malloc_length]
  rw [this]
  exact ⟨_, rfl, ⟨⟨rfl, u3, rfl, by simp, by simp only; omega⟩, by simp⟩, rfl, rfl, rfl⟩

theorem initWithData_spec {k : Nat} (hk : k ≤ 28) (junk : Nat → α) (data : List α) (hn : data.length + 2 * 2 ^ k < 2 ^ 30) :
    ∃ T, initWithData k junk data = .ok T ∧ Ok k T ∧ T.length = data.length ∧ T.size = up k data.length ∧
      T.buf = data ++ List.replicate (up k data.length - data.length) 0 := by
  have h0 : 0 < 2 ^ k := Nat.two_pow_pos k
  obtain ⟨u1, u2, u3⟩ := up_spec k data.length (by omega) (by omega)
  have e1 : (up k data.length + 2 ^ k) % 2 ^ 32 = up k data.length + 2 ^ k := Nat.mod_eq_of_lt (by omega)
  simp only [initWithData, bind, Except.bind, e1]
  rw [clearRange_ok (by rw [malloc_length]; omega)]
  have : (malloc junk (up k data.length)).take 0 ++ List.replicate (up k data.length) (0 : α)
      ++ (malloc junk (up k data.length)).drop (0 + up k data.length) = List.replicate (up k data.length) 0 := by
    simp [List.drop_of_length_le, malloc_length]
  simp only [this]
  rw [copyInto_ok (by simp; omega) (by omega)]
  simp only [List.take_length, List.drop_replicate]
  exact ⟨_, rfl, ⟨rfl, u3, rfl, by simp; omega, by simp only; omega⟩, rfl, rfl, rfl⟩

end Verif.Tab
