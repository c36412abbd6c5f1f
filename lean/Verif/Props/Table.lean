import Verif.TableProofs
/-!
C17 (resizing tables), C18 (control access to tables), C49 (signal access to tables).

`HV_N_SIMD = 2^k`; the theorems hold for every `k ≤ 28`, the real ones being 0, 2 and 3.  Table lengths are below
`2^30 - 2*2^k` so that byte counts fit in 32 bits.
-/
namespace Verif.Tab
open Verif.Msg (R Err assert)

variable {α : Type} [Zero α]

/-- the tables a program can have: created by `hTable_init` or (only if `d`) `hTable_initWithData`, resized any number
of times with any behaviour of the allocator, and with arbitrary samples written in between -/
inductive Made (k : Nat) (d : Bool) : Table α → Prop
  | init {junk : Nat → α} {n : Nat} {T : Table α} : n + 2 * 2 ^ k < 2 ^ 30 → init k junk n = .ok T → Made k d T
  | data {junk : Nat → α} {data : List α} {T : Table α} : d = true → data.length + 2 * 2 ^ k < 2 ^ 30 → initWithData k junk data = .ok T → Made k d T
  | resize {T : Table α} {A : Alloc α} {n : Nat} {T' : Table α} : Made k d T → n + 2 * 2 ^ k < 2 ^ 30 → resize k A T n = .ok T' → Made k d T'
  | write {T : Table α} {buf : List α} {h : Nat} : Made k d T → buf.length = T.buf.length → Made k d { T with buf := buf, head := h }

theorem Made.ok {k : Nat} (hk : k ≤ 28) {d : Bool} {T : Table α} (h : Made k d T) :
    Ok k T ∧ (d = false → Full k T) := by
  induction h with
  | @init junk n T hn e =>
    obtain ⟨T, e', h, -⟩ := init_spec hk junk hn
    rw [e'] at e; cases e
    exact ⟨h.toOk, fun _ => h⟩
  | @data junk data T hd hn e =>
    obtain ⟨T, e', h, -⟩ := initWithData_spec hk junk data hn
    rw [e'] at e; cases e
    exact ⟨h, fun h => by simp [hd] at h⟩
  | @resize T A n T' _ hn e ih =>
    obtain ⟨T1, e', h1, -, h3, h4⟩ := resize_spec hk A ih.1 hn
    rw [e'] at e; cases e
    by_cases hs : up k n = T.size
    · rw [h3 hs]; exact ih
    · exact ⟨(h4 hs).2.1.toOk, fun _ => (h4 hs).2.1⟩
  | write _ hl ih =>
    obtain ⟨⟨a, b, c, d, e⟩, f⟩ := ih
    exact ⟨⟨a, b, c, by simp only; omega, e⟩, fun hd => ⟨⟨a, b, c, by simp only; omega, e⟩, by
      simp only; rw [hl]; exact (f hd).full⟩⟩

/-! ## C17 -/

/-- **C17** (partial: the reported length).  Resizing any table to `n` samples does not fault, whatever the allocator
does; the usable size is `n` rounded up to whole vectors; the samples that both sizes have are unchanged; all samples
that the old table did not have are zero; if the usable size changes, the length is `n` and the buffer has room for
one more vector than its size.  Missing: when the usable size does not change, the length keeps its old value (see
`resize_keeps_stale_length`). -/
theorem table_resize_partial {k : Nat} (hk : k ≤ 28) {d : Bool} {T : Table α} (hT : Made k d T) (A : Alloc α) {n : Nat}
    (hn : n + 2 * 2 ^ k < 2 ^ 30) :
    ∃ T', resize k A T n = .ok T' ∧
      n ≤ T'.size ∧ T'.size < n + 2 ^ k ∧ T'.size ≤ T'.buf.length ∧
      (∀ i, i < T.size → i < T'.size → T'.buf[i]? = T.buf[i]?) ∧
      (∀ i, T.size ≤ i → i < T'.size → T'.buf[i]? = some 0) ∧
      (T'.size ≠ T.size → T'.length = n ∧ T'.allocated = T'.size + 2 ^ k ∧ T'.buf.length = T'.allocated) := by
  have h0 : 0 < 2 ^ k := Nat.two_pow_pos k
  obtain ⟨u1, u2, u3⟩ := up_spec k n (by omega) (by omega)
  obtain ⟨T1, e, h1, -, h3, h4⟩ := resize_spec hk A (hT.ok hk).1 hn
  refine ⟨T1, e, by omega, by omega, ?_⟩
  by_cases hs : up k n = T.size
  · rw [h3 hs]
    exact ⟨(hT.ok hk).1.room, fun _ _ _ => rfl, fun i _ _ => by omega, fun h => absurd rfl h⟩
  · obtain ⟨g1, g2, g3, g4⟩ := h4 hs
    have ga := g2.alloc
    refine ⟨g2.room, fun i _ _ => g3 i ‹_› (by omega), fun i _ _ => g4 i ‹_› (by omega), fun _ => ⟨g1, ga, g2.full⟩⟩

/-- finding F9: resizing within the same number of vectors changes nothing, not even the reported length -/
theorem resize_keeps_stale_length {k : Nat} (hk : k ≤ 28) {d : Bool} {T : Table α} (hT : Made k d T) (A : Alloc α) {n : Nat}
    (hn : n + 2 * 2 ^ k < 2 ^ 30) (hs : up k n = T.size) : resize k A T n = .ok T := by
  obtain ⟨T1, e, -, -, h3, -⟩ := resize_spec hk A (hT.ok hk).1 hn
  rw [e, h3 hs]

/-- F9 concretely: with four lanes, a table of 8 samples resized to 5 still reports 8 -/
theorem resize_length_wrong (junk : Nat → Int) (A : Alloc Int) :
    ∃ T, init 2 junk 8 = .ok T ∧ resize 2 A T 5 = .ok T ∧ T.length = 8 := by
  obtain ⟨T, e, h1, h2, h3, -⟩ := init_spec (k := 2) (by decide) junk (n := 8) (by decide)
  refine ⟨T, e, ?_, h2⟩
  exact resize_keeps_stale_length (d := false) (by decide) (.init (by decide) e) A (by decide) (by rw [h3]; decide)

/-- the data given to a table, followed by zeros up to the usable size -/
theorem initWithData_contents {k : Nat} (hk : k ≤ 28) (junk : Nat → α) (data : List α)
    (hn : data.length + 2 * 2 ^ k < 2 ^ 30) :
    ∃ T, initWithData k junk data = .ok T ∧ T.length = data.length ∧ T.buf = data ++ List.replicate (T.size - data.length) 0 := by
  obtain ⟨T, e, -, h2, h3, h4⟩ := initWithData_spec hk junk data hn
  exact ⟨T, e, h2, by rw [h4, h3]⟩

/-- finding F8: a table created with data has one vector less memory than `allocated` says, so mirroring its start
(which `vd~`, `tabosc4~` rely on) writes outside the buffer, and so does the read of the vector at index `size` that
the bound in `__hv_tabread_f` lets through -/
theorem initWithData_overrun {k : Nat} (hk : k ≤ 28) (junk : Nat → α) (data : List α)
    (hn : data.length + 2 * 2 ^ k < 2 ^ 30) :
    ∃ T, initWithData k junk data = .ok T ∧ T.allocated = T.buf.length + 2 ^ k ∧ mirror k T = .error .ub ∧
      sTabreadF k [T] { table := some 0, head := T.size, last := 0, aligned := true, playing := true } = .error .ub := by
  have h0 : 0 < 2 ^ k := Nat.two_pow_pos k
  obtain ⟨u1, u2, u3⟩ := up_spec k data.length (by omega) (by omega)
  obtain ⟨T, e, h1, h2, h3, h4⟩ := initWithData_spec hk junk data hn
  have hl : T.buf.length = T.size := by rw [h4, h3]; simp; omega
  have ha := h1.alloc
  have hm := h1.small
  refine ⟨T, e, by omega, by unfold mirror; rw [if_neg (by omega)], ?_⟩
  simp only [sTabreadF, deref, List.getElem?_cons_zero, bind, Except.bind, assert]
  rw [Nat.mod_eq_of_lt (by omega), if_pos (by simp; omega)]
  simp only [loadN]
  rw [if_neg (by omega)]

/-- the reported size after a `resize` message -/
theorem onResizeMessage_reports {k : Nat} (hk : k ≤ 28) {d : Bool} {T : Table α} (hT : Made k d T) (A : Alloc α)
    (other : Nat) (q : Rat) (hq : 0 ≤ q) (hn : q.ceil.toNat + 2 * 2 ^ k < 2 ^ 30) :
    ∃ T', onResizeMessage k A other T (.fin q) = .ok (T', some T'.size) ∧ resize k A T q.ceil.toNat = .ok T' ∧
      q ≤ (T'.size : Rat) := by
  obtain ⟨T', e, h1, -⟩ := table_resize_partial hk hT A hn
  have hlt : q.ceil < 2 ^ 31 := by
    have := Int.self_le_toNat q.ceil
    omega
  refine ⟨T', ?_, e, ?_⟩
  · simp only [onResizeMessage, Flt.geZero, hq, decide_true, if_true, if_pos hlt, bind, Except.bind, e]
  · have h2 : q ≤ (q.ceil : Rat) := Rat.le_ceil
    have h3 : q.ceil ≤ (T'.size : Int) := by omega
    have h4 : ((q.ceil : Int) : Rat) ≤ ((T'.size : Int) : Rat) := by exact_mod_cast h3
    rw [Rat.intCast_natCast] at h4
    exact Rat.le_trans h2 h4

end Verif.Tab
