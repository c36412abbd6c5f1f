import Verif.DelayLineProofs
/-! Proofs about `delread~`. -/
namespace Verif.DelayLine
open Verif.Tab
open Verif.Msg (R Err)

/-! ### the queue -/

theorem push_sorted {ε : Type} {q : List (Nat × ε)} (h : q.Pairwise fun a b => a.1 ≤ b.1) (t : Nat) (e : ε) :
    (push q t e).Pairwise fun a b => a.1 ≤ b.1 := by
  unfold push
  induction q with
  | nil => simp
  | cons p q ih =>
    rw [List.pairwise_cons] at h
    by_cases hp : p.1 ≤ t
    · rw [List.takeWhile_cons_of_pos (by simpa using hp), List.dropWhile_cons_of_pos (by simpa using hp), List.cons_append,
        List.pairwise_cons]
      refine ⟨fun a ha => ?_, ih h.2⟩
      rcases List.mem_append.1 ha with ha | ha
      · exact h.1 a (List.takeWhile_subset _ ha)
      · rcases List.mem_cons.1 ha with rfl | ha
        · exact hp
        · exact h.1 a ((List.dropWhile_sublist _).subset ha)
    · rw [List.takeWhile_cons_of_neg (by simpa using hp), List.dropWhile_cons_of_neg (by simpa using hp), List.nil_append,
        List.pairwise_cons]
      refine ⟨fun a ha => ?_, List.pairwise_cons.2 h⟩
      rcases List.mem_cons.1 ha with rfl | ha
      · simp; omega
      · have := h.1 a ha; simp; omega

theorem push_filter {ε : Type} (q : List (Nat × ε)) (t : Nat) (e : ε) (p : Nat × ε → Bool) (h : p (t, e) = false) :
    (push q t e).filter p = q.filter p := by
  unfold push
  rw [List.filter_append, List.filter_cons_of_neg (by simpa using h), ← List.filter_append, List.takeWhile_append_dropWhile]

theorem push_filter_last {ε : Type} (q : List (Nat × ε)) (t : Nat) (e : ε) (p : Nat × ε → Bool) (h : p (t, e) = true)
    (hs : q.Pairwise fun a b => a.1 ≤ b.1) (hl : ∀ a ∈ q, p a = true → a.1 ≤ t) :
    (push q t e).filter p = q.filter p ++ [(t, e)] := by
  have key : ∀ q : List (Nat × ε), (q.Pairwise fun a b => a.1 ≤ b.1) → (∀ a ∈ q, p a = true → a.1 ≤ t) →
      (q.dropWhile fun a => decide (a.1 ≤ t)).filter p = [] := by
    intro q hs hl
    rw [List.filter_eq_nil_iff]
    intro a ha hp
    have h1 := hl a ((List.dropWhile_sublist _).subset ha) hp
    have hd : (q.dropWhile fun a => decide (a.1 ≤ t)).Pairwise fun a b => a.1 ≤ b.1 := hs.sublist (List.dropWhile_sublist _)
    cases hq : q.dropWhile fun a => decide (a.1 ≤ t) with
    | nil => rw [hq] at ha; cases ha
    | cons b r =>
      have hb : ¬ b.1 ≤ t := by
        have := List.head_dropWhile_not (fun a : Nat × ε => decide (a.1 ≤ t)) (l := q) (by rw [hq]; simp)
        simp only [hq, List.head_cons] at this
        simpa using this
      rw [hq] at ha hd
      rw [List.pairwise_cons] at hd
      rcases List.mem_cons.1 ha with rfl | ha
      · exact hb h1
      · have := hd.1 a ha; omega
  unfold push
  conv_rhs => rw [← List.takeWhile_append_dropWhile (p := fun a : Nat × ε => decide (a.1 ≤ t)) (l := q)]
  rw [List.filter_append, List.filter_append, List.filter_cons_of_pos h, key q hs hl, List.append_nil]

/-! ### a new delay -/

/-- `e` rounded up to a multiple of `N` -/
def rup (N e : Nat) : Nat := (e + (N - 1)) / N * N

theorem rup_spec (N e : Nat) (h : 0 < N) : e ≤ rup N e ∧ rup N e < e + N ∧ rup N e % N = 0 := by
  unfold rup
  have h1 := Nat.div_add_mod (e + (N - 1)) N
  have h2 := Nat.mod_lt (e + (N - 1)) h
  rw [Nat.mul_comm] at h1
  refine ⟨by omega, by omega, Nat.mul_mod_left _ _⟩

/-- `D` is the delay `d`, at least `N`, rounded to a multiple of `N` -/
structure Rounds (N : Nat) (d : ℚ) (D : Nat) : Prop where
  mult : D % N = 0
  low : max d N < (D : ℚ) + 1
  high : (D : ℚ) < max d N + N

theorem Rounds.ge {N : Nat} {d : ℚ} {D : Nat} (h : Rounds N d D) : N ≤ D := by
  have h1 : (N : ℚ) < D + 1 := lt_of_le_of_lt (le_max_right _ _) h.low
  have : N < D + 1 := by exact_mod_cast h1
  omega

theorem sub_mult {N a b : Nat} (ha : a % N = 0) (hb : b % N = 0) : (a - b) % N = 0 := by
  obtain ⟨x, rfl⟩ := Nat.dvd_of_mod_eq_zero ha
  obtain ⟨y, rfl⟩ := Nat.dvd_of_mod_eq_zero hb
  rw [← Nat.mul_sub]; exact Nat.mul_mod_right _ _

theorem alignDown_eq {k a e : Nat} (hk : k ≤ 32) (ha : a % 2 ^ k = 0) (he : e ≤ a) (hb : a < 2 ^ 32) :
    alignDown k (a - e) = a - rup (2 ^ k) e := by
  have h0 : 0 < 2 ^ k := Nat.two_pow_pos k
  obtain ⟨s1, s2, s3⟩ := alignDown_spec k (a - e) hk (by omega)
  obtain ⟨r1, r2, r3⟩ := rup_spec (2 ^ k) e h0
  have hle : rup (2 ^ k) e ≤ a := by
    by_contra hc
    have := mult_lt h0 ha r3 (by omega)
    omega
  have h3 := sub_mult ha r3
  generalize hN : 2 ^ k = N at *
  generalize alignDown k (a - e) = u at *
  generalize rup N e = v at *
  by_contra hne
  rcases Nat.lt_or_ge u (a - v) with h | h
  · have := mult_lt h0 s3 h3 h
    omega
  · have := mult_lt h0 h3 s3 (by omega)
    omega

/-- the read head after a new delay `d` -/
theorem set_head {k other S H : Nat} (hk : k ≤ 28) (hS : S % 2 ^ k = 0) (hS1 : S < 2 ^ 30) (hH : H % 2 ^ k = 0) (hHS : H ≤ S)
    (d : ℚ) (hd : max d (2 ^ k) ≤ (S : ℚ)) {T : Table ℚ} (hT : T.head = H) (hT' : T.size = S) (o : STabread)
    (ho : o.table = some 0) (ha : o.aligned = true) :
    ∃ h D, sTabreadMsg k other [T] o 0 (.float (.fin ((T.head : ℚ) - max d (2 ^ k)))) =
        .ok { o with last := S, head := h, playing := true } ∧
      h ≤ S ∧ h % 2 ^ k = 0 ∧ Rounds (2 ^ k) d D ∧ (h + D = H ∨ h + D = S + H) := by
  have h0 : 0 < 2 ^ k := Nat.two_pow_pos k
  have eQ : (((2 ^ k : Nat)) : ℚ) = 2 ^ k := by push_cast; rfl
  have hN1 : (1 : ℚ) ≤ 2 ^ k := by rw [← eQ]; exact_mod_cast h0
  generalize hm : max d (2 ^ k) = m at *
  have hmN : (2 ^ k : ℚ) ≤ m := by rw [← hm]; exact le_max_right _ _
  have mk : ∀ e : Nat, m < (e : ℚ) + 1 → (e : ℚ) < m + 1 → Rounds (2 ^ k) d (rup (2 ^ k) e) := by
    intro e e1 e2
    obtain ⟨r1, r2, r3⟩ := rup_spec (2 ^ k) e h0
    have q1 : (e : ℚ) ≤ rup (2 ^ k) e := by exact_mod_cast r1
    have q2 : (rup (2 ^ k) e : ℚ) + 1 ≤ e + 2 ^ k := by rw [← eQ]; exact_mod_cast r2
    refine ⟨r3, ?_, ?_⟩
    · rw [eQ, hm]; linarith
    · rw [eQ, hm]; linarith
  have hcompute : ∀ f : Flt, sTabreadMsg k other [T] o 0 (.float f) = .ok { o with
      last := S, head := alignDown k (if f.ltZero then (S + 2 ^ 32 - f.abs.toU32 other) % 2 ^ 32 else f.abs.toU32 other), playing := true } := by
    intro f
    simp only [sTabreadMsg, ho, deref, List.getElem?_cons_zero, bind, Except.bind, hT', ha, if_true]
    rfl
  rw [hcompute, hT]
  by_cases hneg : (H : ℚ) - m < 0
  · -- wraps
    have e1 : Flt.ltZero (.fin ((H : ℚ) - m)) = true := by simp [Flt.ltZero]; linarith
    have e2 : Flt.abs (.fin ((H : ℚ) - m)) = .fin (m - H) := by simp only [Flt.abs]; rw [if_pos hneg]; congr 1; ring
    rw [e1, if_pos rfl, e2]
    obtain ⟨a, ha'⟩ : ∃ a : Nat, (m - H).floor = (a : Int) := by
      have : 0 ≤ (m - H).floor := by
        rw [show (0 : Int) = ((0 : Rat)).floor from rfl]
        exact Rat.floor_monotone (by linarith)
      exact ⟨_, (Int.toNat_of_nonneg this).symm⟩
    have hfl : ⌊m - (H : ℚ)⌋ = (a : Int) := ha'
    have a1 : (a : ℚ) ≤ m - H := by
      have := Int.floor_le (m - (H : ℚ)); rw [hfl] at this; exact_mod_cast this
    have a2 : m - H < (a : ℚ) + 1 := by
      have := Int.lt_floor_add_one (m - (H : ℚ)); rw [hfl] at this; exact_mod_cast this
    have haS : a + H ≤ S := by
      have : (a : ℚ) + H ≤ S := by linarith
      exact_mod_cast this
    have e3 : Flt.toU32 other (.fin (m - H)) = a := by
      simp only [Flt.toU32]
      rw [ha', if_pos ⟨by linarith, by omega⟩]
      rfl
    rw [e3]
    have e4 : (S + 2 ^ 32 - a) % 2 ^ 32 = S - a := by
      rw [show S + 2 ^ 32 - a = S - a + 2 ^ 32 by omega, Nat.add_mod_right, Nat.mod_eq_of_lt (by omega)]
    rw [e4, show S - a = S + H - (a + H) by omega, alignDown_eq (by omega) (by rw [Nat.add_mod, hS, hH]; rfl) (by omega) (by omega)]
    obtain ⟨r1, r2, r3⟩ := rup_spec (2 ^ k) (a + H) h0
    have hle : rup (2 ^ k) (a + H) ≤ S := by
      by_contra hc
      have := mult_lt h0 hS r3 (by omega)
      omega
    refine ⟨S + H - rup (2 ^ k) (a + H), rup (2 ^ k) (a + H), rfl, by omega,
      sub_mult (by rw [Nat.add_mod, hS, hH]; rfl) r3, mk _ (by push_cast; linarith) (by push_cast; linarith), .inr (by omega)⟩
  · have e1 : Flt.ltZero (.fin ((H : ℚ) - m)) = false := by simp [Flt.ltZero]; linarith
    have e2 : Flt.abs (.fin ((H : ℚ) - m)) = .fin (H - m) := by simp only [Flt.abs]; rw [if_neg hneg]
    rw [e1, if_neg (by decide), e2]
    obtain ⟨a, ha'⟩ : ∃ a : Nat, ((H : ℚ) - m).floor = (a : Int) := by
      have : 0 ≤ ((H : ℚ) - m).floor := by
        rw [show (0 : Int) = ((0 : Rat)).floor from rfl]
        exact Rat.floor_monotone (by linarith)
      exact ⟨_, (Int.toNat_of_nonneg this).symm⟩
    have hfl : ⌊(H : ℚ) - m⌋ = (a : Int) := ha'
    have a1 : (a : ℚ) ≤ H - m := by
      have := Int.floor_le ((H : ℚ) - m); rw [hfl] at this; exact_mod_cast this
    have a2 : (H : ℚ) - m < (a : ℚ) + 1 := by
      have := Int.lt_floor_add_one ((H : ℚ) - m); rw [hfl] at this; exact_mod_cast this
    have haH : a ≤ H := by
      have : (a : ℚ) ≤ H := by linarith
      exact_mod_cast this
    have e3 : Flt.toU32 other (.fin (H - m)) = a := by
      simp only [Flt.toU32]
      rw [ha', if_pos ⟨by linarith, by omega⟩]
      rfl
    rw [e3, show a = H - (H - a) by omega, alignDown_eq (by omega) hH (by omega) (by omega)]
    obtain ⟨r1, r2, r3⟩ := rup_spec (2 ^ k) (H - a) h0
    have hle : rup (2 ^ k) (H - a) ≤ H := by
      by_contra hc
      have := mult_lt h0 hH r3 (by omega)
      omega
    refine ⟨H - rup (2 ^ k) (H - a), rup (2 ^ k) (H - a), rfl, by omega, sub_mult hH r3,
      mk _ ?_ ?_, .inl (by omega)⟩ <;> rw [Nat.cast_sub haH] <;> linarith

/-! ### dispatching -/

/-- while the messages of block `b` are dispatched: `D` is the delay, `l` the new delays still to come -/
structure RD (k S b D : Nat) (l : List (Nat × ℚ)) (r : Reader) : Prop where
  table : r.rd.table = some 0
  aligned : r.rd.aligned = true
  mult : r.rd.head % 2 ^ k = 0
  le : r.rd.head ≤ S
  pos : (S : Int) ∣ ((b * 2 ^ k : Nat) : Int) - D - r.rd.head
  sorted : r.q.Pairwise fun a b => a.1 ≤ b.1
  sets : r.q.filter (fun p => p.2.isSet) = l.map fun m => (m.1, REv.set m.2)
  timer : ∃ t < 2 ^ k, ∃ e, r.q.filter (fun p => !p.2.isSet) = [(b * 2 ^ k + t + (S - r.rd.head), e)]

/-- what `delread~` sees of the table in block `b` -/
structure Seen (k S b : Nat) (T : Table ℚ) : Prop where
  size : T.size = S
  head : T.head ≤ S
  mult : T.head % 2 ^ k = 0
  pos : (S : Int) ∣ ((b * 2 ^ k : Nat) : Int) - T.head

theorem rdispatch_step {k other : Nat} {T : Table ℚ} {fuel lim t : Nat} {e : REv} {q : List (Nat × REv)} {r r' : Reader}
    (hq : r.q = (t, e) :: q) (ht : t < lim) (h : Reader.fire k other T { r with q := q } t e = .ok r') :
    Reader.dispatch k other T (fuel + 1) lim r = Reader.dispatch k other T fuel lim r' := by
  rw [Reader.dispatch, hq]
  simp only
  rw [if_pos ht]
  simp only [bind, Except.bind, h]

theorem fire_set {k other S b t : Nat} {T : Table ℚ} (hk : k ≤ 28) (hS : S % 2 ^ k = 0) (hS1 : S < 2 ^ 30)
    (hT : Seen k S b T) {d : ℚ} (hd : max d (2 ^ k) ≤ (S : ℚ)) {r : Reader} {l : List (Nat × ℚ)}
    (htab : r.rd.table = some 0) (hal : r.rd.aligned = true)
    (hsorted : r.q.Pairwise fun a b => a.1 ≤ b.1) (hsets : r.q.filter (fun p => p.2.isSet) = l.map fun m => (m.1, REv.set m.2))
    (ht : b * 2 ^ k ≤ t) (ht' : t < (b + 1) * 2 ^ k) :
    ∃ r' D', Reader.fire k other T r t (.set d) = .ok r' ∧ RD k S b D' l r' ∧ Rounds (2 ^ k) d D' := by
  obtain ⟨h, D, e1, h1, h2, h3, h4⟩ := set_head (other := other) hk hS hS1 hT.mult hT.head d hd rfl hT.size r.rd htab hal
  have hdel : (max 0 (-((h : Int) - (T.size : Int)))).toNat = S - h := by rw [hT.size]; omega
  have hf : (r.q.filter fun p => p.2.isSet).Pairwise fun a b => a.1 ≤ b.1 := hsorted.sublist List.filter_sublist
  refine ⟨⟨{ r.rd with last := S, head := h, playing := true }, push (r.q.filter fun p => p.2.isSet) (t + (S - h)) .first⟩, D, ?_,
    ⟨htab, hal, h2, h1, ?_, push_sorted hf _ _, ?_, t - b * 2 ^ k, ?_, .first, ?_⟩, h3⟩
  · simp only [Reader.fire, bind, Except.bind, e1, hdel]
  · have := hT.pos
    simp only
    rcases h4 with h4 | h4
    · rw [show ((b * 2 ^ k : Nat) : Int) - D - h = ((b * 2 ^ k : Nat) : Int) - T.head by omega]; exact this
    · rw [show ((b * 2 ^ k : Nat) : Int) - D - h = (((b * 2 ^ k : Nat) : Int) - T.head) - S by omega]
      exact Int.dvd_sub this (Int.dvd_refl _)
  · simp only
    rw [push_filter _ _ _ _ rfl, List.filter_filter]
    simp only [Bool.and_self]
    exact hsets
  · rw [Nat.succ_mul] at ht'; omega
  · simp only
    rw [push_filter_last _ _ _ _ rfl hf]
    · rw [List.filter_filter]
      have : (r.q.filter fun a => (!a.2.isSet) && a.2.isSet) = [] := by
        rw [List.filter_eq_nil_iff]; intro a _; simp
      rw [this, List.nil_append]
      congr 2
      omega
    · intro a ha hp
      simp [List.mem_filter] at ha hp
      rw [hp] at ha; simp at ha

theorem fire_timer {k other S b t D : Nat} {T : Table ℚ} (hT : Seen k S b T) {r : Reader} {l : List (Nat × ℚ)} {e : REv}
    (he : e.isSet = false) (htab : r.rd.table = some 0) (hal : r.rd.aligned = true)
    (hpos : (S : Int) ∣ ((b * 2 ^ k : Nat) : Int) - D)
    (hsorted : r.q.Pairwise fun a b => a.1 ≤ b.1) (hsets : r.q.filter (fun p => p.2.isSet) = l.map fun m => (m.1, REv.set m.2))
    (hno : r.q.filter (fun p => !p.2.isSet) = [])
    (ht : b * 2 ^ k ≤ t) (ht' : t < (b + 1) * 2 ^ k) :
    ∃ r', Reader.fire k other T r t e = .ok r' ∧ RD k S b D l r' ∧ r'.rd.head = 0 := by
  have hfire : Reader.fire k other T r t e = .ok ⟨{ r.rd with last := S, head := 0, playing := true }, push r.q (t + S) .loop⟩ := by
    cases e with
    | set d => cases he
    | first => simp [Reader.fire, sTabreadMsg, htab, deref, bind, Except.bind, hT.size]
    | loop => simp [Reader.fire, sTabreadMsg, htab, deref, bind, Except.bind, hT.size]
  refine ⟨_, hfire, ⟨htab, hal, by simp, by simp, by simpa using hpos, push_sorted hsorted _ _, ?_, t - b * 2 ^ k, ?_, .loop, ?_⟩, rfl⟩
  · simp only
    rw [push_filter _ _ _ _ rfl]; exact hsets
  · rw [Nat.succ_mul] at ht'; omega
  · simp only
    rw [push_filter_last _ _ _ _ rfl hsorted, hno, List.nil_append]
    · congr 2; omega
    · intro a ha hp
      have : a ∈ r.q.filter (fun p => !p.2.isSet) := List.mem_filter.2 ⟨ha, hp⟩
      rw [hno] at this; cases this

theorem rdispatch {k other S b : Nat} {T : Table ℚ} (hk : k ≤ 28) (hS : S % 2 ^ k = 0) (hS1 : S < 2 ^ 30) (hSN : 2 ^ k ≤ S)
    (hT : Seen k S b T) : ∀ (fuel : Nat) (l : List (Nat × ℚ)) (r : Reader) (D : Nat), RD k S b D l r →
    (∀ m ∈ l, b * 2 ^ k ≤ m.1 ∧ m.1 < (b + 1) * 2 ^ k ∧ max m.2 (2 ^ k) ≤ (S : ℚ)) →
    2 * l.length + (if r.rd.head = S then 1 else 0) + 1 ≤ fuel →
    ∃ r' D', Reader.dispatch k other T fuel ((b + 1) * 2 ^ k) r = .ok r' ∧ RD k S b D' [] r' ∧ r'.rd.head < S ∧
      (l = [] → D' = D) ∧ ∀ m, l.getLast? = some m → Rounds (2 ^ k) m.2 D' := by
  intro fuel
  induction fuel with
  | zero => intros; omega
  | succ fuel ih =>
    intro l r D hr hl hfuel
    have h0 : 0 < 2 ^ k := Nat.two_pow_pos k
    obtain ⟨t, ht, e, htimer⟩ := hr.timer
    cases hq : r.q with
    | nil => rw [hq] at htimer; cases htimer
    | cons p q =>
      obtain ⟨tp, ep⟩ := p
      have hso := hr.sorted
      have hse := hr.sets
      rw [hq] at hso hse htimer
      rw [List.pairwise_cons] at hso
      by_cases hep : ep.isSet = true
      · -- a new delay
        obtain ⟨d, rfl⟩ : ∃ d, ep = .set d := by
          cases ep with
          | set d => exact ⟨d, rfl⟩
          | first => cases hep
          | loop => cases hep
        rw [List.filter_cons_of_pos (by simp [REv.isSet])] at hse
        cases l with
        | nil => cases hse
        | cons m l =>
          rw [List.map_cons] at hse
          simp only [List.cons.injEq, Prod.mk.injEq, REv.set.injEq] at hse
          obtain ⟨⟨rfl, rfl⟩, hse⟩ := hse
          obtain ⟨b1, b2, b3⟩ := hl m (by simp)
          obtain ⟨r1, D1, f1, f2, f3⟩ := fire_set (other := other) hk hS hS1 hT b3 (r := { r with q := q }) (l := l) hr.table hr.aligned hso.2 hse b1 b2
          obtain ⟨r', D', g1, g2, g3, g4, g5⟩ := ih l r1 D1 f2 (fun m hm => hl m (by simp [hm])) (by
            simp only [List.length_cons] at hfuel
            split at hfuel <;> split <;> omega)
          refine ⟨r', D', by rw [rdispatch_step hq b2 f1, g1], g2, g3, by simp, fun m' hm' => ?_⟩
          cases l with
          | nil =>
            simp only [List.getLast?_singleton, Option.some.injEq] at hm'
            subst hm'
            rw [g4 rfl]; exact f3
          | cons m2 l =>
            rw [List.getLast?_cons_cons] at hm'
            exact g5 m' hm'
      · -- the timer
        have hep' : ep.isSet = false := by simpa using hep
        rw [List.filter_cons_of_pos (by simp [hep'])] at htimer
        rw [List.filter_cons_of_neg (by simp [hep'])] at hse
        simp only [List.cons.injEq, Prod.mk.injEq] at htimer
        obtain ⟨⟨rfl, rfl⟩, hno⟩ := htimer
        have hle := hr.le
        by_cases hend : r.rd.head = S
        · have hdue : b * 2 ^ k + t + (S - r.rd.head) < (b + 1) * 2 ^ k := by rw [Nat.succ_mul]; omega
          have hpos : (S : Int) ∣ ((b * 2 ^ k : Nat) : Int) - D := by
            have := hr.pos
            rw [hend] at this
            have h2 := Int.dvd_add this (Int.dvd_refl (S : Int))
            rwa [show ((b * 2 ^ k : Nat) : Int) - D - S + S = ((b * 2 ^ k : Nat) : Int) - D by omega] at h2
          obtain ⟨r1, f1, f2, f3⟩ := fire_timer (other := other) hT (r := { r with q := q }) (l := l) hep' hr.table hr.aligned hpos hso.2 hse hno (by omega) hdue
          obtain ⟨r', D', g1, g2, g3, g4, g5⟩ := ih l r1 D f2 hl (by
            rw [if_pos hend] at hfuel
            rw [f3, if_neg (by omega)]; omega)
          exact ⟨r', D', by rw [rdispatch_step hq hdue f1, g1], g2, g3, g4, g5⟩
        · have hmul : r.rd.head + 2 ^ k ≤ S := mult_lt h0 hr.mult hS (by omega)
          have hndue : ¬ b * 2 ^ k + t + (S - r.rd.head) < (b + 1) * 2 ^ k := by rw [Nat.succ_mul]; omega
          have hl0 : l = [] := by
            cases l with
            | nil => rfl
            | cons m l =>
              exfalso
              rw [List.map_cons] at hse
              have hm : ((m.1, REv.set m.2) : Nat × REv) ∈ q.filter fun p => p.2.isSet := by rw [hse]; simp
              have h1 := hso.1 _ (List.mem_filter.1 hm).1
              have h2 := hl m (by simp)
              simp only at h1
              omega
          subst hl0
          refine ⟨r, D, ?_, hr, by omega, fun _ => rfl, by simp⟩
          rw [Reader.dispatch, hq]
          simp only
          rw [if_neg hndue]

theorem receive_spec {r : Reader} (hs : r.q.Pairwise fun a b => a.1 ≤ b.1) (l0 : List (Nat × ℚ))
    (hf : r.q.filter (fun p => p.2.isSet) = l0.map fun m => (m.1, REv.set m.2)) :
    ∀ (ms : List (Nat × ℚ)), (l0 ++ ms).Pairwise (fun a b => a.1 ≤ b.1) →
    ∀ r', r' = r.receive ms → r'.rd = r.rd ∧ (r'.q.Pairwise fun a b => a.1 ≤ b.1) ∧
      r'.q.filter (fun p => p.2.isSet) = (l0 ++ ms).map (fun m => (m.1, REv.set m.2)) ∧
      r'.q.filter (fun p => !p.2.isSet) = r.q.filter (fun p => !p.2.isSet) := by
  intro ms
  induction ms generalizing r l0 with
  | nil => rintro hp _ rfl; exact ⟨rfl, hs, by simpa [Reader.receive] using hf, rfl⟩
  | cons m ms ih =>
    rintro hp _ rfl
    have hlast : ∀ a ∈ r.q, a.2.isSet = true → a.1 ≤ m.1 := by
      intro a ha h
      have : a ∈ r.q.filter (fun p => p.2.isSet) := List.mem_filter.2 ⟨ha, h⟩
      rw [hf] at this
      obtain ⟨m', hm', rfl⟩ := List.mem_map.1 this
      rw [List.pairwise_append] at hp
      exact hp.2.2 m' hm' m (by simp)
    obtain ⟨a1, a2, a3, a4⟩ := ih (r := { r with q := push r.q m.1 (.set m.2) }) (push_sorted hs _ _) (l0 ++ [m]) (by
      simp only
      rw [push_filter_last _ _ _ _ rfl hs hlast, hf]; simp) (by simpa using hp) _ rfl
    rw [show Reader.receive r (m :: ms) = Reader.receive { r with q := push r.q m.1 (.set m.2) } ms from rfl]
    refine ⟨a1, a2, by simpa using a3, ?_⟩
    rw [a4]
    simp only
    rw [push_filter _ _ _ _ rfl]

/-- the table in block `b`, before and after the signals of `delwrite~` -/
theorem table_at {k M : Nat} {x : Nat → ℚ} {s : Writer} (hi : Fresh k M x s) (hM : 0 < M) (hs : M * 2 ^ k < 2 ^ 30) (fuel b : Nat) :
    ∃ s0 s1 s2, Writer.after k (fuel + 3) x s b = .ok s0 ∧ Writer.messages k (fuel + 3) b s0 = .ok s1 ∧
      Writer.after k (fuel + 3) x s (b + 1) = .ok s2 ∧ Writer.write k x b s1 = .ok s2 ∧
      Seen k (M * 2 ^ k) b s1.tab ∧ Win k (M * 2 ^ k) (b * 2 ^ k) x s1.tab ∧ Win k (M * 2 ^ k) ((b + 1) * 2 ^ k) x s2.tab := by
  have hbd : b = b / M * M + b % M := by rw [Nat.mul_comm]; exact (Nat.div_add_mod b M).symm
  obtain ⟨s0, s1, s2, a1, a2, a3, a4, -, a5, a6, a7, a8⟩ := reach hi hs fuel b (b / M) (b % M) (Nat.mod_lt _ hM) hbd
  have e : b / M * (M * 2 ^ k) + b % M * 2 ^ k = b * 2 ^ k := by
    conv_rhs => rw [hbd]
    ring
  have w1 := a5.win
  have w2 := a6.win
  rw [e] at w1
  rw [Nat.succ_mul (b % M), ← Nat.add_assoc, e, ← Nat.succ_mul b] at w2
  refine ⟨s0, s1, s2, a1, a2, a3, a4, ⟨w1.size, ?_, ?_, ?_⟩, w1, w2⟩
  all_goals
    rcases Nat.eq_zero_or_pos b with h | h
    · subst h
      obtain ⟨-, rfl⟩ := a7 rfl
      rw [hi.head]
      simp
    · have hb1 : b = (b - 1) / M * M + (b - 1) % M + 1 := by
        have : b - 1 = (b - 1) / M * M + (b - 1) % M := by rw [Nat.mul_comm]; exact (Nat.div_add_mod _ M).symm
        omega
      have hr := Nat.mod_lt (b - 1) hM
      obtain ⟨h1, -, -⟩ := a8 _ _ hr hb1
      rw [h1]
      first
        | exact Nat.mul_le_mul_right _ hr
        | exact Nat.mul_mod_left _ _
        | (refine ⟨((b - 1) / M : Nat), ?_⟩
           generalize (b - 1) / M = c at *
           generalize (b - 1) % M = r at *
           have hbi : (b : Int) = c * M + r + 1 := by exact_mod_cast hb1
           push_cast
           rw [hbi]
           ring)

theorem delay_unique {S D D' : Nat} {a h : Int} (h1 : (S : Int) ∣ a - D - h) (h2 : (S : Int) ∣ a - D' - h) (d1 : 1 ≤ D) (d2 : D ≤ S)
    (d3 : 1 ≤ D') (d4 : D' ≤ S) : D = D' := by
  have h3 := Int.dvd_sub h1 h2
  rw [show a - D - h - (a - D' - h) = (D' : Int) - D by ring] at h3
  by_contra hne
  rcases Nat.lt_or_ge D D' with h | h
  · have := Int.le_of_dvd (by omega) h3
    omega
  · have h4 := (Int.dvd_neg).2 h3
    have := Int.le_of_dvd (by omega) h4
    omega

/-- the vector `__tabread~f` reads -/
theorem read_block {k S b D E : Nat} {x : Nat → ℚ} {T : Table ℚ} (hw : Win k S E x T) (o : STabread) (ho : o.table = some 0)
    (hm : o.head + 2 ^ k ≤ S) (hS1 : S < 2 ^ 30) (hpos : (S : Int) ∣ ((b * 2 ^ k : Nat) : Int) - D - o.head)
    (hD : D ≤ S) (h1 : b * 2 ^ k + 2 ^ k ≤ E + D) (h2 : E + D ≤ b * 2 ^ k + S) :
    ∃ out, sTabreadF k [T] o = .ok ({ o with head := o.head + 2 ^ k }, out) ∧ out.length = 2 ^ k ∧
      ∀ i < 2 ^ k, out[i]? = some (if D ≤ b * 2 ^ k + i then x (b * 2 ^ k + i - D) else 0) := by
  have h0 : 0 < 2 ^ k := Nat.two_pow_pos k
  have hfull := hw.full
  have hal := hw.alloc
  have e : (o.head + 2 ^ k) % 2 ^ 32 = o.head + 2 ^ k := Nat.mod_eq_of_lt (by omega)
  refine ⟨(T.buf.drop o.head).take (2 ^ k), ?_, by simp; omega, fun i hi => ?_⟩
  · simp only [sTabreadF, deref, ho, List.getElem?_cons_zero, bind, Except.bind, Verif.Msg.assert, e]
    rw [if_pos (by simp; omega)]
    simp only [loadN]
    rw [if_pos (by omega)]
  · rw [List.getElem?_take_of_lt hi, List.getElem?_drop]
    obtain ⟨j, hj⟩ := hpos
    by_cases hc : D ≤ b * 2 ^ k + i
    · rw [if_pos hc, ← hw.cur (b * 2 ^ k + i - D) (by omega) (by omega)]
      congr 1
      have hj' : ((b * 2 ^ k + i - D : Nat) : Int) = (o.head + i : Nat) + S * j := by
        rw [← hj]; omega
      have : ((b * 2 ^ k + i - D : Nat) : Int) % (S : Int) = ((o.head + i : Nat) : Int) % S := by
        rw [hj', Int.add_mul_emod_self_left]
      have h3 : (b * 2 ^ k + i - D) % S = (o.head + i) % S := by exact_mod_cast this
      rw [h3, Nat.mod_eq_of_lt (by omega)]
    · rw [if_neg hc]
      apply hw.zero _ (by omega)
      have hlt : (S : Int) * j < 0 := by rw [← hj]; omega
      have hj1 : j = -1 := by
        have hSpos : (0 : Int) < S := by omega
        have j1 : j < 0 := by
          by_contra hn
          have := Int.mul_nonneg (le_of_lt hSpos) (show 0 ≤ j by omega)
          omega
        have j2 : -2 < j := by
          by_contra hn
          have := Int.mul_le_mul_of_nonneg_left (show j ≤ -2 by omega) (le_of_lt hSpos)
          omega
        omega
      rw [hj1] at hj
      omega

end Verif.DelayLine
