/-!
Byte-addressed memory with little-endian reads and writes, and C strings.  Addresses are natural numbers.
This is the memory that the message code of `HvMessage.c`/`HvMessagePool.c` works on.
-/
namespace Verif.Mem

abbrev Byte := BitVec 8
abbrev Mem := Nat → Byte

/-- little-endian read of `k` bytes at address `a` -/
def rd (M : Mem) (a : Nat) : Nat → Nat
  | 0 => 0
  | k + 1 => (M a).toNat + 256 * rd M (a + 1) k

/-- little-endian write of the low `k` bytes of `v` at address `a` -/
def wr (M : Mem) (a k v : Nat) : Mem :=
  fun x => if a ≤ x ∧ x < a + k then BitVec.ofNat 8 (v / 256 ^ (x - a)) else M x

/-- `memcpy(dst, src, n)` -/
def memcpy (M : Mem) (dst src n : Nat) : Mem :=
  fun x => if dst ≤ x ∧ x < dst + n then M (src + (x - dst)) else M x

/-- `memset(dst, 0, n)` -/
def memclear (M : Mem) (dst n : Nat) : Mem :=
  fun x => if dst ≤ x ∧ x < dst + n then 0 else M x

/-- `strlen(p)`; the number is the number of bytes looked at before giving up (`none`: no terminator
found, the string is not terminated). -/
def strlen (M : Mem) (p : Nat) : Nat → Option Nat
  | 0 => none
  | k + 1 => if M p = 0 then some 0 else (strlen M (p + 1) k).map (· + 1)

/-- the characters of a string of known length -/
def chars (M : Mem) (p : Nat) : Nat → List Byte
  | 0 => []
  | k + 1 => M p :: chars M (p + 1) k

/-- there is the C string `s` at address `p` -/
def IsStr (M : Mem) : Nat → List Byte → Prop
  | p, [] => M p = 0
  | p, c :: s => M p = c ∧ c ≠ 0 ∧ IsStr M (p + 1) s

theorem rd_congr {M N : Mem} {a k : Nat} (h : ∀ x, a ≤ x → x < a + k → M x = N x) : rd M a k = rd N a k := by
  induction k generalizing a with
  | zero => rfl
  | succ k ih =>
    simp only [rd]
    rw [h a (by omega) (by omega), ih (fun x h1 h2 => h x (by omega) (by omega))]

theorem rd_shift {M N : Mem} {a b k : Nat} (h : ∀ i, i < k → M (a + i) = N (b + i)) : rd M a k = rd N b k := by
  induction k generalizing a b with
  | zero => rfl
  | succ k ih =>
    simp only [rd]
    have h0 := h 0 (by omega)
    simp only [Nat.add_zero] at h0
    rw [h0, ih (a := a + 1) (b := b + 1) (fun i hi => by
      have := h (i + 1) (by omega)
      rwa [show a + 1 + i = a + (i + 1) by omega, show b + 1 + i = b + (i + 1) by omega])]

theorem rd_lt (M : Mem) (a k : Nat) : rd M a k < 256 ^ k := by
  induction k generalizing a with
  | zero => simp [rd]
  | succ k ih =>
    simp only [rd]
    have := (M a).isLt
    have := ih (a + 1)
    rw [Nat.pow_succ]
    omega

theorem wr_out {M : Mem} {a k v x : Nat} (h : x < a ∨ a + k ≤ x) : wr M a k v x = M x := by
  unfold wr; rw [if_neg (by omega)]

theorem rd_wr_out {M : Mem} {a k v b j : Nat} (h : b + j ≤ a ∨ a + k ≤ b) : rd (wr M a k v) b j = rd M b j :=
  rd_congr fun _ _ _ => wr_out (by omega)

theorem rd_wr (M : Mem) (a k v : Nat) : rd (wr M a k v) a k = v % 256 ^ k := by
  induction k generalizing a v with
  | zero => simp [rd, Nat.mod_one]
  | succ k ih =>
    simp only [rd]
    have h0 : (wr M a (k + 1) v a).toNat = v % 256 := by simp [wr]
    have h1 : rd (wr M a (k + 1) v) (a + 1) k = rd (wr M (a + 1) k (v / 256)) (a + 1) k := by
      apply rd_congr
      intro x h1 h2
      unfold wr
      rw [if_pos (by omega), if_pos (by omega), Nat.div_div_eq_div_mul, Nat.mul_comm, ← Nat.pow_succ]
      congr 3
      omega
    rw [h0, h1, ih, Nat.pow_succ, Nat.mul_comm _ 256, Nat.mod_mul]

theorem rd_wr_lt {M : Mem} {a k v : Nat} (h : v < 256 ^ k) : rd (wr M a k v) a k = v := by
  rw [rd_wr, Nat.mod_eq_of_lt h]

theorem memcpy_out {M : Mem} {d s n x : Nat} (h : x < d ∨ d + n ≤ x) : memcpy M d s n x = M x := by
  unfold memcpy; rw [if_neg (by omega)]

theorem memcpy_in {M : Mem} {d s n i : Nat} (h : i < n) : memcpy M d s n (d + i) = M (s + i) := by
  unfold memcpy; rw [if_pos (by omega)]; congr 1; omega

theorem memclear_out {M : Mem} {d n x : Nat} (h : x < d ∨ d + n ≤ x) : memclear M d n x = M x := by
  unfold memclear; rw [if_neg (by omega)]

theorem IsStr.congr {M N : Mem} {p : Nat} {s : List Byte} (h : ∀ x, p ≤ x → x ≤ p + s.length → M x = N x)
    (hs : IsStr M p s) : IsStr N p s := by
  induction s generalizing p with
  | nil => simp only [IsStr] at *; rw [← h p (by omega) (by simp)]; exact hs
  | cons c s ih =>
    simp only [IsStr, List.length_cons] at *
    refine ⟨by rw [← h p (by omega) (by omega)]; exact hs.1, hs.2.1, ih (fun x h1 h2 => h x (by omega) (by omega)) hs.2.2⟩

theorem IsStr.shift {M N : Mem} {p q : Nat} {s : List Byte} (h : ∀ i, i ≤ s.length → M (p + i) = N (q + i))
    (hs : IsStr M p s) : IsStr N q s := by
  induction s generalizing p q with
  | nil => simp only [IsStr] at *; have := h 0 (by simp); simp only [Nat.add_zero] at this; rw [← this]; exact hs
  | cons c s ih =>
    simp only [IsStr, List.length_cons] at *
    have h0 := h 0 (by simp)
    simp only [Nat.add_zero] at h0
    refine ⟨by rw [← h0]; exact hs.1, hs.2.1, ih (p := p + 1) (q := q + 1) (fun i hi => ?_) hs.2.2⟩
    have := h (i + 1) (by omega)
    rwa [show p + (i + 1) = p + 1 + i by omega, show q + (i + 1) = q + 1 + i by omega] at this

theorem IsStr.strlen {M : Mem} {p : Nat} {s : List Byte} (hs : IsStr M p s) {k : Nat} (hk : s.length < k) :
    strlen M p k = some s.length := by
  induction s generalizing p k with
  | nil => obtain ⟨k, rfl⟩ : ∃ j, k = j + 1 := ⟨k - 1, by omega⟩; simp only [IsStr] at hs; simp [Mem.strlen, hs]
  | cons c s ih =>
    obtain ⟨k, rfl⟩ : ∃ j, k = j + 1 := ⟨k - 1, by omega⟩
    simp only [IsStr, List.length_cons] at *
    simp only [Mem.strlen]
    rw [if_neg (by rw [hs.1]; exact hs.2.1), ih hs.2.2 (by omega)]
    rfl

theorem IsStr.chars {M : Mem} {p : Nat} {s : List Byte} (hs : IsStr M p s) : chars M p s.length = s := by
  induction s generalizing p with
  | nil => rfl
  | cons c s ih => simp only [IsStr, List.length_cons, Mem.chars] at *; rw [hs.1, ih hs.2.2]

theorem isStr_unique {M : Mem} {p : Nat} {s t : List Byte} (hs : IsStr M p s) (ht : IsStr M p t) : s = t := by
  induction s generalizing p t with
  | nil => cases t with
    | nil => rfl
    | cons c t => simp only [IsStr] at *; exact absurd (ht.1 ▸ hs) ht.2.1
  | cons c s ih => cases t with
    | nil => simp only [IsStr] at *; exact absurd (hs.1 ▸ ht) hs.2.1
    | cons d t => simp only [IsStr] at *; rw [ih hs.2.2 ht.2.2, ← hs.1, ← ht.1]

end Verif.Mem
