import Mathlib.Tactic.Linarith
import Mathlib.Tactic.Ring
import Mathlib.Algebra.Order.Floor.Ring
import Verif.TableProofs
import Verif.DelayLine
/-! Proofs about the delay lines. -/
namespace Verif.DelayLine
open Verif.Tab
open Verif.Msg (R Err)

/-- the table holds the last `S` of the first `E` samples -/
structure Win (k S E : Nat) (x : Nat → ℚ) (T : Table ℚ) : Prop where
  full : T.buf.length = S + 2 ^ k
  size : T.size = S
  alloc : T.allocated = S + 2 ^ k
  cur : ∀ m : Nat, m < E → E ≤ m + S → T.buf[m % S]? = some (x m)
  zero : ∀ p : Nat, p < S → E ≤ p → T.buf[p]? = some 0

theorem mod_of (c S p : Nat) (h : p < S) : (c * S + p) % S = p := by
  rw [Nat.add_comm, Nat.add_mul_mod_self_right, Nat.mod_eq_of_lt h]

theorem storeN_get {T T' : Table ℚ} {i : Nat} {vs : List ℚ} (h : storeN T i vs = .ok T') :
    i + vs.length ≤ T.buf.length ∧ T'.buf.length = T.buf.length ∧ T'.size = T.size ∧ T'.allocated = T.allocated ∧
    ∀ p : Nat, T'.buf[p]? = if i ≤ p ∧ p < i + vs.length then vs[p - i]? else T.buf[p]? := by
  unfold storeN at h
  split at h
  · rename_i hl
    cases h
    refine ⟨hl, by simp; omega, rfl, rfl, fun p => ?_⟩
    simp only
    by_cases h1 : p < i
    · rw [if_neg (by omega), List.append_assoc, List.getElem?_append_left (by simp; omega), List.getElem?_take_of_lt h1]
    · by_cases h2 : p < i + vs.length
      · rw [if_pos (by omega), List.append_assoc, List.getElem?_append_right (by simp; omega),
          List.getElem?_append_left (by simp; omega)]
        simp [Nat.min_eq_left (by omega : i ≤ T.buf.length)]
      · rw [if_neg (by omega), List.getElem?_append_right (by simp; omega), List.getElem?_drop]
        congr 1
        simp; omega
  · cases h

theorem Win.store {k S c pos : Nat} {x : Nat → ℚ} {T T' : Table ℚ} (hw : Win k S (c * S + pos) x T)
    (hp : pos + 2 ^ k ≤ S) {vs : List ℚ} (hl : vs.length = 2 ^ k)
    (hv : ∀ i < 2 ^ k, vs[i]? = some (x (c * S + pos + i))) (h : storeN T pos vs = .ok T') :
    Win k S (c * S + pos + 2 ^ k) x T' ∧ T'.buf[S]? = T.buf[S]? := by
  obtain ⟨-, h2, h3, h4, h5⟩ := storeN_get h
  have h0 : 0 < 2 ^ k := Nat.two_pow_pos k
  obtain ⟨w1, w2, w3, w4, w5⟩ := hw
  generalize hN : 2 ^ k = N at *
  refine ⟨⟨by omega, by omega, by omega, fun m a b => ?_, fun p a b => ?_⟩, ?_⟩
  · rw [h5, hl]
    by_cases hm : c * S + pos ≤ m
    · have e : m % S = pos + (m - (c * S + pos)) := by
        rw [← mod_of c S (pos + (m - (c * S + pos))) (by omega)]
        congr 1; omega
      rw [e, if_pos (by omega), show pos + (m - (c * S + pos)) - pos = m - (c * S + pos) by omega, hv _ (by omega)]
      congr 2; omega
    · rw [if_neg, w4 m (by omega) (by omega)]
      by_cases hc : c * S ≤ m
      · have e : m % S = m - c * S := by
          rw [← mod_of c S (m - c * S) (by omega)]
          congr 1; omega
        omega
      · obtain ⟨c, rfl⟩ : ∃ c', c = c' + 1 := ⟨c - 1, by
          have : c ≠ 0 := by rintro rfl; simp at hc
          omega⟩
        rw [Nat.succ_mul] at *
        have e : m % S = m - c * S := by
          rw [← mod_of c S (m - c * S) (by omega)]
          congr 1; omega
        omega
  · rw [h5, hl, if_neg, w5 p a (by omega)]
    by_cases hc : c = 0
    · subst hc; omega
    · have := Nat.le_mul_of_pos_left S (Nat.pos_of_ne_zero hc)
      omega
  · rw [h5, hl, if_neg (by omega)]

/-- after block `c * M + r` -/
structure Inv (k M : Nat) (x : Nat → ℚ) (c r : Nat) (s : Writer) : Prop where
  win : Win k (M * 2 ^ k) (c * (M * 2 ^ k) + (r + 1) * 2 ^ k) x s.tab
  head : s.tab.head = (r + 1) * 2 ^ k
  whead : s.w.head = (r + 1) * 2 ^ k
  table : s.w.table = some 0
  period : s.period = M * 2 ^ k
  mirA : 1 ≤ c → 1 ≤ r → s.tab.buf[M * 2 ^ k]? = some (x (c * (M * 2 ^ k)))
  mirB : 2 ≤ c → r = 0 → s.tab.buf[M * 2 ^ k]? = some (x ((c - 1) * (M * 2 ^ k)))
  mirC : c = 0 ∨ c = 1 ∧ r = 0 → s.tab.buf[M * 2 ^ k]? = some 0
  q : s.q = (if 1 ≤ c ∧ r = 0 then [(c * (M * 2 ^ k) + 2 ^ k, WEv.mirror)] else []) ++ [((c + 1) * (M * 2 ^ k), .wrap)]

/-- before the first block -/
structure Fresh (k M : Nat) (x : Nat → ℚ) (s : Writer) : Prop where
  win : Win k (M * 2 ^ k) 0 x s.tab
  head : s.tab.head = 0
  whead : s.w.head = 0
  table : s.w.table = some 0
  period : s.period = M * 2 ^ k
  mirC : s.tab.buf[M * 2 ^ k]? = some 0
  q : s.q = [(M * 2 ^ k, .wrap)]

/-- after the messages of block `c * M + r`, before its signals -/
structure Mid (k M : Nat) (x : Nat → ℚ) (c r : Nat) (s : Writer) : Prop where
  win : Win k (M * 2 ^ k) (c * (M * 2 ^ k) + r * 2 ^ k) x s.tab
  whead : s.w.head = r * 2 ^ k
  table : s.w.table = some 0
  period : s.period = M * 2 ^ k
  mirA : 1 ≤ c → 1 ≤ r → s.tab.buf[M * 2 ^ k]? = some (x (c * (M * 2 ^ k)))
  mirB : 2 ≤ c → r = 0 → s.tab.buf[M * 2 ^ k]? = some (x ((c - 1) * (M * 2 ^ k)))
  mirC : c = 0 ∨ c = 1 ∧ r = 0 → s.tab.buf[M * 2 ^ k]? = some 0
  q : s.q = (if 1 ≤ c ∧ r = 0 then [(c * (M * 2 ^ k) + 2 ^ k, WEv.mirror)] else []) ++ [((c + 1) * (M * 2 ^ k), .wrap)]

theorem dispatch_stop (k fuel lim : Nat) (s : Writer) (h : ∀ p ∈ s.q.head?, lim ≤ p.1) :
    Writer.dispatch k (fuel + 1) lim s = .ok s := by
  unfold Writer.dispatch
  cases hq : s.q with
  | nil => rfl
  | cons p q =>
    obtain ⟨t, e⟩ := p
    have := h (t, e) (by rw [hq]; rfl)
    simp only
    rw [if_neg (by simp at this; omega)]

theorem dispatch_step (k fuel lim t : Nat) (e : WEv) (q : List (Nat × WEv)) (s s' : Writer) (hq : s.q = (t, e) :: q) (ht : t < lim)
    (h : Writer.fire k { s with q := q } t e = .ok s') :
    Writer.dispatch k (fuel + 1) lim s = Writer.dispatch k fuel lim s' := by
  rw [Writer.dispatch]
  rw [hq]
  simp only
  rw [if_pos ht]
  simp only [bind, Except.bind, h]

theorem mirror_get {k S E : Nat} {x : Nat → ℚ} {T : Table ℚ} (hw : Win k S E x T) (hS : 2 ^ k ≤ S) :
    ∃ T', Tab.mirror k T = .ok T' ∧ Win k S E x T' ∧ T'.buf[S]? = T.buf[0]? ∧ T'.head = T.head := by
  obtain ⟨w1, w2, w3, w4, w5⟩ := hw
  have h0 : 0 < 2 ^ k := Nat.two_pow_pos k
  unfold Tab.mirror
  rw [if_pos (by omega), w2]
  generalize hN : 2 ^ k = N at *
  have low : ∀ p, p < S → (T.buf.take S ++ T.buf.take N ++ T.buf.drop (S + N))[p]? = T.buf[p]? := fun p hp => by
    rw [List.append_assoc, List.getElem?_append_left (by simp; omega), List.getElem?_take_of_lt hp]
  refine ⟨_, rfl, ⟨by simp; omega, rfl, by simp only [w3, hN], fun m a b => ?_, fun p a b => ?_⟩, ?_, rfl⟩
  · simp only
    rw [low _ (Nat.mod_lt _ (by omega)), w4 m a b]
  · simp only
    rw [low _ a, w5 p a b]
  · simp only
    rw [List.append_assoc, List.getElem?_append_right (by simp), List.getElem?_append_left (by simp; omega)]
    simp only [List.length_take]
    rw [show S - min S T.buf.length = 0 by omega, List.getElem?_take_of_lt h0]

/-- the messages of the next block -/
theorem Inv.messages {k M : Nat} {x : Nat → ℚ} {c r : Nat} {s : Writer} (hi : Inv k M x c r s) (hr : r < M) (fuel : Nat) :
    ∃ s', Writer.messages k (fuel + 3) (c * M + r + 1) s = .ok s' ∧ s'.tab.head = (r + 1) * 2 ^ k ∧
      (r + 1 < M → Mid k M x c (r + 1) s') ∧ (r + 1 = M → Mid k M x (c + 1) 0 s') ∧
      (1 ≤ c → s'.tab.buf[M * 2 ^ k]? = some (x (c * (M * 2 ^ k)))) ∧ (c = 0 → s'.tab.buf[M * 2 ^ k]? = some 0) := by
  obtain ⟨iw, ih, iwh, it, ip, iA, iB, iC, iq⟩ := hi
  have h0 : 0 < 2 ^ k := Nat.two_pow_pos k
  have hS : 2 ^ k ≤ M * 2 ^ k := Nat.le_mul_of_pos_left _ (by omega)
  have hlim : (c * M + r + 1 + 1) * 2 ^ k = c * (M * 2 ^ k) + r * 2 ^ k + 2 * 2 ^ k := by ring
  unfold Writer.messages
  rw [hlim]
  have hrS : (r + 1) * 2 ^ k ≤ M * 2 ^ k := Nat.mul_le_mul_right _ hr
  have hrS' : r + 1 < M → (r + 1) * 2 ^ k + 2 ^ k ≤ M * 2 ^ k := fun h => by
    have := Nat.mul_le_mul_right (2 ^ k) (show r + 1 + 1 ≤ M by omega)
    rw [Nat.succ_mul (r + 1)] at this
    exact this
  have hrS'' : r + 1 = M → (r + 1) * 2 ^ k = M * 2 ^ k := fun h => by rw [h]
  -- after the mirror
  obtain ⟨s1, f1, e1, m1, m2, m3, m4, m5, m6, m7⟩ : ∃ s1 f1,
      Writer.dispatch k (fuel + 3) (c * (M * 2 ^ k) + r * 2 ^ k + 2 * 2 ^ k) s =
      Writer.dispatch k (f1 + 2) (c * (M * 2 ^ k) + r * 2 ^ k + 2 * 2 ^ k) s1 ∧
      s1.w = s.w ∧ s1.period = s.period ∧ s1.q = [((c + 1) * (M * 2 ^ k), .wrap)] ∧
      Win k (M * 2 ^ k) (c * (M * 2 ^ k) + (r + 1) * 2 ^ k) x s1.tab ∧
      s1.tab.head = (r + 1) * 2 ^ k ∧
      (1 ≤ c → s1.tab.buf[M * 2 ^ k]? = some (x (c * (M * 2 ^ k)))) ∧ (c = 0 → s1.tab.buf[M * 2 ^ k]? = some 0) := by
    by_cases hm : 1 ≤ c ∧ r = 0
    · rw [if_pos hm] at iq
      obtain ⟨hc1, rfl⟩ := hm
      obtain ⟨T', g1, g2, g3, g4⟩ := mirror_get iw hS
      refine ⟨{ s with tab := T', q := [((c + 1) * (M * 2 ^ k), .wrap)] }, fuel, ?_, rfl, rfl, rfl, g2, by simp only [g4, ih], fun _ => ?_, by omega⟩
      · refine dispatch_step k (fuel + 2) _ _ _ _ s _ iq (by omega) ?_
        unfold Writer.fire
        simp only [bind, Except.bind, g1]
        rfl
      · simp only
        rw [g3]
        have := iw.cur (c * (M * 2 ^ k)) (by omega) (by omega)
        rwa [Nat.mul_mod_left] at this
    · rw [if_neg hm] at iq
      exact ⟨s, fuel + 1, rfl, rfl, rfl, iq, iw, ih, fun h => iA h (by omega), fun h => iC (.inl h)⟩
  rw [e1]
  rw [Nat.succ_mul c] at m3
  rw [Nat.succ_mul r] at *
  by_cases hlt : r + 1 < M
  · refine ⟨s1, dispatch_stop k (f1 + 1) _ _ ?_, m5, fun _ => ⟨?_, ?_, by rw [m1, it], by rw [m2, ip], fun h _ => m6 h,
      fun _ h => by omega, fun h => m7 (by omega), ?_⟩, fun h => absurd hlt (by omega), m6, m7⟩
    · rw [m3]
      have := hrS' hlt
      simp; omega
    · rw [Nat.succ_mul]; exact m4
    · rw [m1, iwh, Nat.succ_mul]
    · rw [m3, if_neg (by omega), Nat.succ_mul c]; rfl
  · have hM : r + 1 = M := by omega
    have := hrS'' hM
    refine ⟨{ s1 with w := { s1.w with head := 0 }, q := [(c * (M * 2 ^ k) + M * 2 ^ k + 2 ^ k, .mirror),
      (c * (M * 2 ^ k) + M * 2 ^ k + M * 2 ^ k, .wrap)] }, ?_, m5, fun h => absurd h hlt, fun _ => ⟨?_, by simp, by simp only [m1, it], by simp only [m2, ip],
      fun _ h => by omega, fun h _ => ?_, fun h => ?_, ?_⟩, m6, m7⟩
    · rw [dispatch_step k (f1 + 1) _ _ _ _ s1 m3 (show c * (M * 2 ^ k) + M * 2 ^ k < c * (M * 2 ^ k) + r * 2 ^ k + 2 * 2 ^ k by omega) (s' := { s1 with w := { s1.w with head := 0 }, q := [(c * (M * 2 ^ k) + M * 2 ^ k + 2 ^ k, .mirror),
        (c * (M * 2 ^ k) + M * 2 ^ k + M * 2 ^ k, .wrap)] })]
      · refine dispatch_stop k f1 _ _ ?_
        simp; omega
      · unfold Writer.fire
        simp only [sTabwriteMsg, bind, Except.bind, m2, ip]
        congr 2
        simp [push, hS]
    · rw [show (c + 1) * (M * 2 ^ k) + 0 * 2 ^ k = c * (M * 2 ^ k) + (r * 2 ^ k + 2 ^ k) by rw [this]; ring]; exact m4
    · simp only [Nat.add_sub_cancel]; exact m6 (by omega)
    · exact m7 (by omega)
    · rw [if_pos ⟨by omega, rfl⟩, Nat.succ_mul (c + 1), Nat.succ_mul c]; rfl

theorem Fresh.messages {k M : Nat} {x : Nat → ℚ} {s : Writer} (hi : Fresh k M x s) (hM : 0 < M) (fuel : Nat) :
    Writer.messages k (fuel + 3) 0 s = .ok s ∧ Mid k M x 0 0 s := by
  obtain ⟨iw, ih, iwh, it, ip, iC, iq⟩ := hi
  have hS : 2 ^ k ≤ M * 2 ^ k := Nat.le_mul_of_pos_left _ hM
  refine ⟨dispatch_stop k (fuel + 2) _ _ (by rw [iq]; simpa using hS), by simpa using iw, by simpa using iwh, it, ip, by simp, by simp, fun _ => iC, by simp [iq]⟩

/-- `delwrite~` on a block -/
theorem Mid.write {k M : Nat} {x : Nat → ℚ} {c r : Nat} {s : Writer} (hi : Mid k M x c r s) (hr : r < M)
    (hs : M * 2 ^ k < 2 ^ 30) : ∃ s', Writer.write k x (c * M + r) s = .ok s' ∧ Inv k M x c r s' := by
  obtain ⟨iw, iwh, it, ip, iA, iB, iC, iq⟩ := hi
  have h0 : 0 < 2 ^ k := Nat.two_pow_pos k
  have hrS : (r + 1) * 2 ^ k ≤ M * 2 ^ k := Nat.mul_le_mul_right _ hr
  have hb : (c * M + r) * 2 ^ k = c * (M * 2 ^ k) + r * 2 ^ k := by ring
  rw [Nat.succ_mul] at hrS
  unfold Writer.write
  rw [hb]
  have hst : ∃ T', storeN s.tab (r * 2 ^ k) ((List.range (2 ^ k)).map fun i => x (c * (M * 2 ^ k) + r * 2 ^ k + i)) = .ok T' := by
    unfold storeN
    rw [if_pos (by simp; have := iw.full; omega)]
    exact ⟨_, rfl⟩
  obtain ⟨T', hT⟩ := hst
  obtain ⟨w1, w2⟩ := iw.store hrS (by simp) (fun i hi => by simp [hi]) hT
  refine ⟨{ s with w := { s.w with head := r * 2 ^ k + 2 ^ k }, tab := { T' with head := r * 2 ^ k + 2 ^ k } }, ?_, ?_⟩
  · simp only [sTabwriteF, it, iwh, deref, List.getElem?_cons_zero, bind, Except.bind, List.length_map, List.length_range, Verif.Msg.assert]
    rw [if_pos (by simp [iw.size]; omega), hT]
    simp only [Option.getD_some, List.set_cons_zero, List.getElem?_cons_zero]
    rw [Nat.mod_eq_of_lt (by omega)]
  · refine ⟨?_, by simp [Nat.succ_mul], by simp [Nat.succ_mul], it, ip, fun a b => ?_, fun a b => ?_, fun a => ?_, iq⟩
    · rw [Nat.succ_mul, ← Nat.add_assoc]
      exact ⟨w1.full, w1.size, w1.alloc, w1.cur, w1.zero⟩
    · simp only [w2]; exact iA a b
    · simp only [w2]; exact iB a b
    · simp only [w2]; exact iC a

theorem after_succ {k fuel b : Nat} {x : Nat → ℚ} {s s1 s2 : Writer} (h1 : Writer.after k fuel x s b = .ok s1)
    (h2 : Writer.messages k fuel b s1 = .ok s2) : Writer.after k fuel x s (b + 1) = Writer.write k x b s2 := by
  rw [Writer.after]
  simp only [bind, Except.bind, h1, h2]

/-- the state in block `c * M + r`: after the messages, and after the signals -/
theorem reach {k M : Nat} {x : Nat → ℚ} {s : Writer} (hi : Fresh k M x s) (hs : M * 2 ^ k < 2 ^ 30) (fuel : Nat)
    (b : Nat) : ∀ c r, r < M → b = c * M + r →
    ∃ s0 s1 s2, Writer.after k (fuel + 3) x s b = .ok s0 ∧ Writer.messages k (fuel + 3) b s0 = .ok s1 ∧
      Writer.after k (fuel + 3) x s (b + 1) = .ok s2 ∧ Writer.write k x b s1 = .ok s2 ∧
      s1.tab.head = s0.tab.head ∧ Mid k M x c r s1 ∧ Inv k M x c r s2 ∧
      (b = 0 → s0 = s ∧ s1 = s) ∧
      (∀ c' r', r' < M → b = c' * M + r' + 1 → s1.tab.head = (r' + 1) * 2 ^ k ∧
        (1 ≤ c' → s1.tab.buf[M * 2 ^ k]? = some (x (c' * (M * 2 ^ k)))) ∧ (c' = 0 → s1.tab.buf[M * 2 ^ k]? = some 0)) := by
  induction b with
  | zero =>
    intro c r hr hb
    obtain ⟨m1, m2⟩ := hi.messages (by omega) fuel
    have hc : c = 0 := by
      rcases Nat.eq_zero_of_add_eq_zero hb.symm with ⟨h, -⟩
      rcases Nat.mul_eq_zero.1 h with h | h <;> omega
    subst hc
    have hr0 : r = 0 := by omega
    subst hr0
    obtain ⟨s2, w1, w2⟩ := m2.write hr hs
    refine ⟨s, s, s2, rfl, m1, ?_, by simpa using w1, rfl, m2, w2, fun _ => ⟨rfl, rfl⟩, by omega⟩
    rw [after_succ rfl m1]; simpa using w1
  | succ b ih =>
    intro c r hr hb
    have hM : 0 < M := by omega
    obtain ⟨s0, s1, s2, -, -, a3, -, -, -, a6, -, -⟩ := ih (b / M) (b % M) (Nat.mod_lt _ hM) (by
      rw [Nat.mul_comm]; exact (Nat.div_add_mod b M).symm)
    have hbd : b = b / M * M + b % M := by rw [Nat.mul_comm]; exact (Nat.div_add_mod b M).symm
    have hlt := Nat.mod_lt b hM
    obtain ⟨t1, g1, g2, g3, g4, g5, g6⟩ := a6.messages hlt fuel
    rw [← hbd] at g1
    have hmid : Mid k M x c r t1 := by
      by_cases h : b % M + 1 < M
      · have h1 : (c * M + r) / M = b / M := by
          rw [← hb, hbd]
          rw [show b / M * M + b % M + 1 = b % M + 1 + b / M * M by omega, Nat.add_mul_div_right _ _ hM, Nat.div_eq_of_lt h]
          simp [Nat.add_mul_div_right _ _ hM, Nat.add_comm]
        have h2 : (c * M + r) / M = c := by
          rw [Nat.add_comm, Nat.add_mul_div_right _ _ hM, Nat.div_eq_of_lt hr]; omega
        have hc : c = b / M := by omega
        subst hc
        have : r = b % M + 1 := by omega
        rw [this]
        exact g3 h
      · have h' : b % M + 1 = M := by omega
        have e : b + 1 = (b / M + 1) * M := by rw [Nat.succ_mul]; omega
        have h2 : (c * M + r) / M = c := by
          rw [Nat.add_comm, Nat.add_mul_div_right _ _ hM, Nat.div_eq_of_lt hr]; omega
        rw [← hb, e, Nat.mul_div_cancel _ hM] at h2
        rw [← h2] at hb ⊢
        have : r = 0 := by omega
        rw [this]
        exact g4 h'
    obtain ⟨t2, w1, w2⟩ := hmid.write hr hs
    rw [← hb] at w1
    refine ⟨s2, t1, t2, a3, g1, ?_, w1, by rw [g2, a6.head], hmid, w2, by omega, fun c' r' hr' hb' => ?_⟩
    · rw [after_succ a3 g1, w1]
    · have hc : c' = b / M := by
        have : b = r' + c' * M := by omega
        rw [this, Nat.add_mul_div_right _ _ hM, Nat.div_eq_of_lt hr']; omega
      subst hc
      have : r' = b % M := by omega
      subst this
      exact ⟨g2, g5, g6⟩

/-! ## `vd~` -/

theorem vdPos_floor (k S head i : Nat) (d : ℚ) :
    ⌊vdPos k S head d i⌋ = (head : Int) + i - 2 ^ k - ⌈max (min d ((S : ℚ) - 1)) 0⌉ := by
  unfold vdPos
  rw [show (head : ℚ) + ((i : ℚ) - 2 ^ k) - max (min d ((S : ℚ) - 1)) 0 =
    (((head : Int) + i - 2 ^ k : Int) : ℚ) - max (min d ((S : ℚ) - 1)) 0 by push_cast; ring,
    sub_eq_add_neg, Int.floor_intCast_add, Int.floor_neg]
  ring

theorem vdPos_frac (k S head i : Nat) (d : ℚ) :
    vdPos k S head d i - (⌊vdPos k S head d i⌋ : ℚ) =
      (⌈max (min d ((S : ℚ) - 1)) 0⌉ : ℚ) - max (min d ((S : ℚ) - 1)) 0 := by
  rw [vdPos_floor]
  unfold vdPos
  push_cast
  ring

theorem clamp_ceil (S : Nat) (d : ℚ) (h : 0 < S) :
    0 ≤ ⌈max (min d ((S : ℚ) - 1)) 0⌉ ∧ ⌈max (min d ((S : ℚ) - 1)) 0⌉ ≤ (S : Int) - 1 := by
  constructor
  · exact Int.ceil_nonneg (le_max_right _ _)
  · rw [Int.ceil_le]
    push_cast
    refine max_le (min_le_right _ _) ?_
    have : (1 : ℚ) ≤ S := by exact_mod_cast h
    linarith

theorem mapM_ok {α β : Type} (f : α → R β) (g : α → β) : ∀ l : List α, (∀ a ∈ l, f a = .ok (g a)) → l.mapM f = .ok (l.map g)
  | [], _ => rfl
  | a :: l, h => by
    rw [List.mapM_cons, h a (by simp), mapM_ok f g l fun b hb => h b (by simp [hb])]
    rfl

/-- random access within the table -/
theorem tabreadIf_ok {k S E : Nat} {x : Nat → ℚ} {T : Table ℚ} (hw : Win k S E x T) (o : STabread) (ho : o.table = some 0)
    (is : List Int) (h : ∀ i ∈ is, 0 ≤ i ∧ i < (S : Int) + 2 ^ k) :
    sTabreadIf [T] o is = .ok (is.map fun i => (T.buf[i.toNat]?).getD 0) := by
  unfold sTabreadIf
  simp only [ho, deref, List.getElem?_cons_zero, bind, Except.bind]
  rw [mapM_ok _ (fun _ => ()) is fun i hi => by
    have := h i hi
    simp only [Verif.Msg.assert]
    rw [if_pos]
    have := hw.alloc
    simp; push_cast [this]; omega]
  simp only
  refine mapM_ok _ _ is fun i hi => ?_
  have := h i hi
  have h1 : i.toNat < T.buf.length := by
    have := hw.full
    have e : ((2 ^ k : Nat) : Int) = 2 ^ k := by push_cast; rfl
    omega
  simp only [readAt, List.getElem?_eq_getElem h1, Option.getD_some]

/-- the interpolated value of a table at position `p` -/
def look (S : Nat) (T : Table ℚ) (p : ℚ) : ℚ :=
  (T.buf[(vdIdx S p).toNat]?).getD 0 +
    ((T.buf[(vdIdx S p + 1).toNat]?).getD 0 - (T.buf[(vdIdx S p).toNat]?).getD 0) * (p - (⌊p⌋ : ℚ))

/-- `vd~` does not fault -/
theorem vd_ok {k S E : Nat} {x : Nat → ℚ} {T : Table ℚ} (hw : Win k S E x T) (hS : 0 < S) (hh : T.head ≤ S) (d : Nat → ℚ)
    (hd : ∀ i < 2 ^ k, 2 ^ k ≤ T.head ∨ max (min (d i) ((S : ℚ) - 1)) 0 ≤ (S : ℚ) - 2 ^ k + i) :
    ∃ out, vd k S T d = .ok out ∧ out.length = 2 ^ k ∧ ∀ i < 2 ^ k, out[i]? = some
      (look S T (vdPos k S T.head (d i) i)) := by
  have h0 : 0 < 2 ^ k := Nat.two_pow_pos k
  have eN : ((2 ^ k : Nat) : Int) = 2 ^ k := by push_cast; rfl
  have key : ∀ i < 2 ^ k, 0 ≤ vdIdx S (vdPos k S T.head (d i) i) ∧ vdIdx S (vdPos k S T.head (d i) i) < S := by
    intro i hi
    unfold vdIdx
    obtain ⟨c1, c2⟩ := clamp_ceil S (d i) hS
    have hd' : (2 ^ k : Int) ≤ T.head ∨ ⌈max (min (d i) ((S : ℚ) - 1)) 0⌉ ≤ (S : Int) - 2 ^ k + i := by
      rcases hd i hi with h | h
      · left; exact_mod_cast h
      · right
        rw [Int.ceil_le]
        push_cast
        exact h
    rw [vdPos_floor]
    generalize ⌈max (min (d i) ((S : ℚ) - 1)) 0⌉ = e at *
    split <;> omega
  unfold vd
  simp only
  rw [tabreadIf_ok hw _ rfl _ (by
    intro i hi
    simp only [List.mem_map, List.mem_range] at hi
    obtain ⟨a, ha, rfl⟩ := hi
    have := key a ha
    omega)]
  simp only [bind, Except.bind]
  rw [tabreadIf_ok hw _ rfl _ (by
    intro i hi
    simp only [List.mem_map, List.mem_range] at hi
    obtain ⟨_, ⟨a, ha, rfl⟩, rfl⟩ := hi
    have := key a ha
    omega)]
  refine ⟨_, rfl, by simp, fun i hi => ?_⟩
  simp [hi, List.getD_eq_getElem?_getD, look]

/-- a signal that is silent before sample 0 -/
def sig (x : Nat → ℚ) (m : Int) : ℚ := if m < 0 then 0 else x m.toNat

/-- linear interpolation between samples `t` and `t + 1` -/
def interp (x : Nat → ℚ) (t : Int) (f : ℚ) : ℚ := sig x t + (sig x (t + 1) - sig x t) * f

/-- a lane of `vd~`; `e` is the delay rounded up, `base` the number of the sample at the start of the table -/
theorem lane {k S c : Nat} {x : Nat → ℚ} {T : Table ℚ} (hw : Win k S (c * S + T.head) x T) (hh : T.head ≤ S)
    (hS : 0 < S) (d : ℚ) (i : Nat) (hi : i < 2 ^ k)
    (hd : max (min d ((S : ℚ) - 1)) 0 ≤ (S : ℚ) - 2 ^ k + i)
    (hm : (⌈max (min d ((S : ℚ) - 1)) 0⌉ : ℚ) ≠ max (min d ((S : ℚ) - 1)) 0 →
      ⌈max (min d ((S : ℚ) - 1)) 0⌉ = (T.head : Int) + i - 2 ^ k + 1 → T.buf[S]? = some (x (c * S))) :
    look S T (vdPos k S T.head d i) =
      interp x (((c * S + T.head : Nat) : Int) + i - 2 ^ k - ⌈max (min d ((S : ℚ) - 1)) 0⌉)
        ((⌈max (min d ((S : ℚ) - 1)) 0⌉ : ℚ) - max (min d ((S : ℚ) - 1)) 0) := by
  have h0 : 0 < 2 ^ k := Nat.two_pow_pos k
  have eN : ((2 ^ k : Nat) : Int) = 2 ^ k := by push_cast; rfl
  simp only [interp, look]
  rw [vdPos_frac]
  obtain ⟨c1, c2⟩ := clamp_ceil S d hS
  have c3 : ⌈max (min d ((S : ℚ) - 1)) 0⌉ ≤ (S : Int) - 2 ^ k + i := by
    rw [Int.ceil_le]; push_cast; exact hd
  have hz : (⌈max (min d ((S : ℚ) - 1)) 0⌉ : ℚ) ≠ max (min d ((S : ℚ) - 1)) 0 → 1 ≤ ⌈max (min d ((S : ℚ) - 1)) 0⌉ := by
    intro h
    by_contra h'
    have e : ⌈max (min d ((S : ℚ) - 1)) 0⌉ = 0 := by omega
    apply h
    rw [e]
    have h1 : max (min d ((S : ℚ) - 1)) 0 ≤ 0 := by
      have := Int.ceil_le.1 (le_of_eq e)
      simpa using this
    have h2 : 0 ≤ max (min d ((S : ℚ) - 1)) 0 := le_max_right _ _
    push_cast
    exact le_antisymm h2 h1
  have hidx : vdIdx S (vdPos k S T.head d i) = ((T.head : Int) + i - 2 ^ k - ⌈max (min d ((S : ℚ) - 1)) 0⌉) +
      if ((T.head : Int) + i - 2 ^ k - ⌈max (min d ((S : ℚ) - 1)) 0⌉) < 0 then (S : Int) else 0 := by
    unfold vdIdx; rw [vdPos_floor]
  rw [hidx]
  generalize max (min d ((S : ℚ) - 1)) 0 = D at *
  -- one sample
  have rd : ∀ f : Int, f < T.head → (T.head : Int) - S ≤ f →
      (T.buf[(f + if f < 0 then (S : Int) else 0).toNat]?).getD 0 = sig x ((c * S + T.head : Nat) + f - T.head) := by
    intro f f1 f2
    unfold sig
    by_cases hf : f < 0
    · rw [if_pos hf]
      by_cases hc : c = 0
      · subst hc
        rw [if_pos (by push_cast; omega), hw.zero _ (by omega) (by omega)]
        rfl
      · have hle := Nat.le_mul_of_pos_left S (Nat.pos_of_ne_zero hc)
        rw [if_neg (by omega)]
        have := hw.cur ((c * S + T.head : Nat) + f - T.head).toNat (by omega) (by omega)
        have e : ((c * S + T.head : Nat) + f - T.head).toNat = (c - 1) * S + (f + S).toNat := by
          rw [Nat.sub_mul, Nat.one_mul]; omega
        rw [e, mod_of _ _ _ (by omega), ← e] at this
        rw [this]
        rfl
    · rw [if_neg hf, if_neg (by omega), Int.add_zero]
      have := hw.cur ((c * S + T.head : Nat) + f - T.head).toNat (by omega) (by omega)
      have e : ((c * S + T.head : Nat) + f - T.head).toNat = c * S + f.toNat := by omega
      rw [e, mod_of _ _ _ (by omega), ← e] at this
      rw [this]
      rfl
  have ra := rd ((T.head : Int) + i - 2 ^ k - ⌈D⌉) (by omega) (by omega)
  rw [ra]
  rw [show (↑(c * S + T.head) : Int) + ((T.head : Int) + i - 2 ^ k - ⌈D⌉) - T.head = ↑(c * S + T.head) + i - 2 ^ k - ⌈D⌉ by ring]
  by_cases hD : (⌈D⌉ : ℚ) = D
  · rw [hD]; simp
  · have hz' := hz hD
    congr 3
    by_cases hS1 : ((T.head : Int) + i - 2 ^ k - ⌈D⌉) = -1
    · rw [hS1]
      simp only [show (-1 : Int) < 0 by decide, if_true]
      rw [show ((-1 : Int) + S + 1).toNat = S by omega, hm hD (by omega)]
      unfold sig
      rw [if_neg (by omega)]
      simp only [Option.getD_some]
      congr 1
      omega
    · have rb := rd ((T.head : Int) + i - 2 ^ k - ⌈D⌉ + 1) (by omega) (by omega)
      rw [show (↑(c * S + T.head) : Int) + ((T.head : Int) + i - 2 ^ k - ⌈D⌉ + 1) - T.head = ↑(c * S + T.head) + i - 2 ^ k - ⌈D⌉ + 1 by ring] at rb
      rw [← rb]
      congr 3
      by_cases hf : ((T.head : Int) + i - 2 ^ k - ⌈D⌉) < 0
      · rw [if_pos hf, if_pos (by omega)]; ring
      · rw [if_neg hf, if_neg (by omega)]; ring

end Verif.DelayLine
