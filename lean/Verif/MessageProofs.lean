import Verif.Message
/-!
Proofs about the byte-level message model.
-/
namespace Verif.Msg
open Mem

theorem assert_true {b : Bool} (h : b = true) : assert b = .ok () := by simp [assert, h]
theorem assert_false {b : Bool} (h : b = false) : assert b = .error .assertFail := by simp [assert, h]

theorem elemAddr_ok {M : Mem} {m i : Nat} (h : i < numElements M m) :
    elemAddr M m (i : Int) = .ok (m + 8 + 16 * i) := by
  unfold elemAddr
  rw [assert_true (by simpa using h)]
  simp only [bind, Except.bind]
  rw [if_neg (by omega), Int.toNat_natCast]

theorem getType_ok {M : Mem} {m i : Nat} (h : i < numElements M m) :
    getType M m (i : Int) = .ok (rd M (m + 8 + 16 * i) 4) := by
  unfold getType; rw [elemAddr_ok h]; rfl

theorem isType_ok {M : Mem} {m i t : Nat} (h : i < numElements M m) :
    isType t M m (i : Int) = .ok (rd M (m + 8 + 16 * i) 4 == t) := by
  unfold isType
  rw [if_pos (by omega), getType_ok h]; rfl

theorem isType_out {M : Mem} {m t : Nat} {i : Int} (h : (numElements M m : Int) ≤ i) : isType t M m i = .ok false := by
  unfold isType; rw [if_neg (by omega)]

theorem getSymbol_ok {M : Mem} {m i : Nat} (h : i < numElements M m) :
    getSymbol M m (i : Int) = .ok (rd M (m + 8 + 16 * i + 8) 8) := by
  unfold getSymbol; rw [elemAddr_ok h]; rfl

theorem strlenR_ok {M : Mem} {p fuel : Nat} {s : List Byte} (hs : IsStr M p s) (hf : s.length < fuel) :
    strlenR fuel M p = .ok s.length := by
  unfold strlenR; rw [hs.strlen hf]

theorem coreSize_ok {n : Nat} (h : 0 < n) : coreSize n = .ok (8 + 16 * n) := by
  unfold coreSize
  rw [assert_true (by simpa using h)]
  simp only [bind, Except.bind]
  congr 1
  omega

/-- `ElemIs` depends only on the 16 bytes of the element and the text -/
theorem ElemIs.congr {M N : Mem} {e : Nat} {v : Val} (h : ElemIs M e v)
    (he : ∀ b, b < 16 → M (e + b) = N (e + b))
    (hs : ∀ s, v = .sym s → ∀ x, rd M (e + 8) 8 ≤ x → x ≤ rd M (e + 8) 8 + s.length → M x = N x) :
    ElemIs N e v := by
  have r4 : rd N e 4 = rd M e 4 := rd_shift fun i hi => (he i (by omega)).symm
  have r84 : rd N (e + 8) 4 = rd M (e + 8) 4 := rd_shift fun i hi => by
    have := he (8 + i) (by omega); rw [show e + 8 + i = e + (8 + i) by omega]; exact this.symm
  have r88 : rd N (e + 8) 8 = rd M (e + 8) 8 := rd_shift fun i hi => by
    have := he (8 + i) (by omega); rw [show e + 8 + i = e + (8 + i) by omega]; exact this.symm
  cases v with
  | bang => simp only [ElemIs] at *; rw [r4]; exact h
  | float f => simp only [ElemIs] at *; rw [r4, r84]; exact h
  | hash f => simp only [ElemIs] at *; rw [r4, r84]; exact h
  | sym s =>
    simp only [ElemIs] at *; rw [r4, r88]
    exact ⟨h.1, h.2.1, h.2.2.congr (hs s rfl)⟩

/-- copying the 16 bytes of a non-symbol element copies the element -/
theorem ElemIs.shift {M N : Mem} {e f : Nat} {v : Val} (h : ElemIs M e v)
    (he : ∀ b, b < 16 → N (f + b) = M (e + b)) (hv : ∀ s, v ≠ .sym s) : ElemIs N f v := by
  have r4 : rd N f 4 = rd M e 4 := rd_shift fun i hi => he i (by omega)
  have r84 : rd N (f + 8) 4 = rd M (e + 8) 4 := rd_shift fun i hi => by
    have := he (8 + i) (by omega)
    rw [show e + 8 + i = e + (8 + i) by omega, show f + 8 + i = f + (8 + i) by omega]; exact this
  cases v with
  | bang => simp only [ElemIs] at *; rw [r4]; exact h
  | float f => simp only [ElemIs] at *; rw [r4, r84]; exact h
  | hash f => simp only [ElemIs] at *; rw [r4, r84]; exact h
  | sym s => exact absurd rfl (hv s)

theorem ElemIs.type_sym {M : Mem} {e : Nat} {v : Val} (h : ElemIs M e v) :
    rd M e 4 = tSymbol ↔ ∃ s, v = .sym s := by
  cases v <;> simp only [ElemIs] at h
  · simp [h, tBang, tSymbol]
  · simp [h.1, tFloat, tSymbol]
  · simp [h.1]
  · simp [h.1, tHash, tSymbol]

/-- invariant of the copy loop -/
structure CInv (M0 : Mem) (m buf len : Nat) (vs : List Val) (i lr : Nat) (M : Mem) : Prop where
  lo : 8 + 16 * vs.length ≤ lr
  hi : lr ≤ len
  out : ∀ x, x < buf ∨ buf + lr ≤ x → M x = M0 x
  hdr : ∀ j, j < 6 → M (buf + j) = M0 (m + j)
  done : ∀ j (h : j < vs.length), j < i → ElemIs M (buf + 8 + 16 * j) vs[j] ∧
    ∀ s, vs[j] = .sym s → buf + 8 + 16 * vs.length ≤ rd M (buf + 8 + 16 * j + 8) 8 ∧
      rd M (buf + 8 + 16 * j + 8) 8 + s.length < buf + lr
  todo : ∀ j, i ≤ j → j < vs.length → ∀ b, b < 16 → M (buf + 8 + 16 * j + b) = M0 (m + 8 + 16 * j + b)

/-- the source of a copy to `[buf, buf+len)` is a message elsewhere, with terminated strings elsewhere -/
structure Src (fuel : Nat) (M : Mem) (m buf len t : Nat) (vs : List Val) : Prop where
  msg : IsMsg M m t vs
  pos : 0 < vs.length
  core : m + (8 + 16 * vs.length) ≤ buf ∨ buf + len ≤ m
  strs : ∀ i (h : i < vs.length) s, vs[i] = .sym s →
    (rd M (m + 8 + 16 * i + 8) 8 + s.length < buf ∨ buf + len ≤ rd M (m + 8 + 16 * i + 8) 8) ∧ s.length < fuel

theorem strncpy_out {M : Mem} {d s n l x : Nat} (h : x < d ∨ d + n ≤ x) : strncpy M d s n l x = M x := by
  unfold strncpy; rw [if_neg (by omega)]

theorem strncpy_isStr {M : Mem} {d s : Nat} {t : List Byte} (h : IsStr M s t)
    : IsStr (strncpy M d s (t.length + 1) t.length) d t := by
  have key : ∀ (k : Nat) (u : List Byte), IsStr M (s + k) u → k + u.length = t.length →
      IsStr (strncpy M d s (t.length + 1) t.length) (d + k) u := by
    intro k u
    induction u generalizing k with
    | nil =>
      intro _ hk
      simp only [List.length_nil, Nat.add_zero] at hk
      simp only [IsStr, strncpy]
      rw [if_pos (by omega), if_neg (by omega)]
    | cons c u ih =>
      intro hu hk
      simp only [IsStr, List.length_cons] at *
      refine ⟨?_, hu.2.1, ih (k + 1) hu.2.2 (by omega)⟩
      simp only [strncpy]
      rw [if_pos (by omega), if_pos (by omega), ← hu.1]
      congr 1
      omega
  exact key 0 t (by simpa using h) (by omega)

theorem copyLoop_spec {fuel : Nat} {M0 : Mem} {m buf len t : Nat} {vs : List Val}
    (hsrc : Src fuel M0 m buf len t vs) (h64 : buf + len ≤ 2^64) :
    ∀ (k i lr : Nat) (M : Mem), i + k = vs.length → CInv M0 m buf len vs i lr M →
      (lr + ((vs.drop i).map symBytes).sum ≤ len →
        ∃ M', copyLoop fuel m buf len k i (buf + lr) lr M = .ok (M', lr + ((vs.drop i).map symBytes).sum) ∧
          CInv M0 m buf len vs vs.length (lr + ((vs.drop i).map symBytes).sum) M') ∧
      (len < lr + ((vs.drop i).map symBytes).sum →
        copyLoop fuel m buf len k i (buf + lr) lr M = .error .assertFail) := by
  intro k
  induction k with
  | zero =>
    intro i lr M hik hI
    have hi : i = vs.length := by omega
    subst hi
    simp only [List.drop_length, List.map_nil, List.sum_nil, Nat.add_zero]
    exact ⟨fun _ => ⟨M, rfl, hI⟩, fun h => absurd hI.hi (by omega)⟩
  | succ k ih =>
    intro i lr M hik hI
    have hi : i < vs.length := by omega
    have hlo := hI.lo
    have hhi := hI.hi
    have hcore := hsrc.core
    -- the source message is untouched
    have hsame : ∀ x, m ≤ x → x < m + (8 + 16 * vs.length) → M x = M0 x := fun x h1 h2 => hI.out x (by omega)
    have hnum : numElements M m = vs.length := by
      rw [← hsrc.msg.num]; exact rd_congr fun x h1 h2 => hsame x (by omega) (by omega)
    have hty : rd M (m + 8 + 16 * i) 4 = rd M0 (m + 8 + 16 * i) 4 :=
      rd_congr fun x h1 h2 => hsame x (by omega) (by omega)
    have hel := hsrc.msg.elem i hi
    have hdrop : (vs.drop i).map symBytes = symBytes vs[i] :: (vs.drop (i + 1)).map symBytes := by
      rw [List.drop_eq_getElem_cons hi]; rfl
    rw [hdrop, List.sum_cons]
    unfold copyLoop
    rw [isType_ok (by omega : i < numElements M m), hty]
    simp only [bind, Except.bind]
    by_cases hs : ∃ s, vs[i] = .sym s
    · obtain ⟨s, hs⟩ := hs
      have hel' := hel
      rw [hs] at hel'
      obtain ⟨e1, e0, e2⟩ := hel'
      rw [if_pos (by simp [e1]), getSymbol_ok (by omega : i < numElements M m)]
      have hp : rd M (m + 8 + 16 * i + 8) 8 = rd M0 (m + 8 + 16 * i + 8) 8 :=
        rd_congr fun x h1 h2 => hsame x (by omega) (by omega)
      obtain ⟨q1, q2⟩ := hsrc.strs i hi s hs
      have e2M : IsStr M (rd M0 (m + 8 + 16 * i + 8) 8) s := e2.congr fun x h1 h2 => (hI.out x (by omega)).symm
      simp only [hp]
      rw [strlenR_ok e2M q2, hs]
      simp only [symBytes]
      by_cases hfit : lr + (s.length + 1) ≤ len
      · rw [assert_true (by simpa using hfit)]
        simp only
        -- the copied text
        generalize hM1 : strncpy M (buf + lr) (rd M0 (m + 8 + 16 * i + 8) 8) (s.length + 1) s.length = M1
        have o1 : ∀ x, x < buf + lr ∨ buf + lr + (s.length + 1) ≤ x → M1 x = M x := fun x hx => by
          rw [← hM1]; exact strncpy_out hx
        have s1 : IsStr M1 (buf + lr) s := by rw [← hM1]; exact strncpy_isStr e2M
        have hnb : numElements M1 buf = vs.length := by
          rw [← hsrc.msg.num]
          apply rd_shift
          intro j hj
          rw [o1 _ (by omega)]
          have := hI.hdr (4 + j) (by omega)
          rw [show buf + 4 + j = buf + (4 + j) by omega, show m + 4 + j = m + (4 + j) by omega]
          exact this
        have hset : ∃ M2, setSymbol fuel M1 buf (i : Int) (buf + lr) = .ok M2 ∧
            (∀ x, x < buf + 6 ∨ buf + 8 ≤ x ∧ x < buf + 8 + 16 * i ∨ buf + 8 + 16 * i + 16 ≤ x → M2 x = M1 x) ∧
            rd M2 (buf + 8 + 16 * i) 4 = tSymbol ∧ rd M2 (buf + 8 + 16 * i + 8) 8 = buf + lr := by
          unfold setSymbol
          rw [elemAddr_ok (by omega)]
          simp only [bind, Except.bind]
          rw [assert_true (by simp; omega)]
          simp only
          generalize hW : wr (wr M1 (buf + 8 + 16 * i) 4 tSymbol) (buf + 8 + 16 * i + 8) 8 (buf + lr) = W
          have oW : ∀ x, x < buf + 8 + 16 * i ∨ buf + 8 + 16 * i + 16 ≤ x → W x = M1 x := fun x hx => by
            rw [← hW, wr_out (by omega), wr_out (by omega)]
          have sW : IsStr W (buf + lr) s := s1.congr fun x h1 h2 => (oW x (by omega)).symm
          rw [strlenR_ok sW q2]
          refine ⟨_, rfl, ?_, ?_, ?_⟩
          · intro x hx
            rw [wr_out (by omega), oW x (by omega)]
          · rw [rd_wr_out (by omega), ← hW, rd_wr_out (by omega), rd_wr_lt (by decide)]
          · rw [rd_wr_out (by omega), ← hW, rd_wr_lt (by omega)]
        obtain ⟨M2, h2, o2, t2, p2⟩ := hset
        rw [h2]
        simp only
        have hI' : CInv M0 m buf len vs (i + 1) (lr + (s.length + 1)) M2 := by
          refine ⟨by omega, hfit, ?_, ?_, ?_, ?_⟩
          · intro x hx; rw [o2 x (by omega), o1 x (by omega), hI.out x (by omega)]
          · intro j hj; rw [o2 _ (by omega), o1 _ (by omega), hI.hdr j hj]
          · intro j hj hji
            by_cases hjeq : j = i
            · subst hjeq
              rw [hs]
              simp only [ElemIs, t2, p2]
              refine ⟨⟨trivial, by omega, s1.congr fun x h1 h2 => (o2 x (by omega)).symm⟩, ?_⟩
              intro s' hs'
              cases hs'
              omega
            · have hlt : j < i := by omega
              obtain ⟨d1, d2⟩ := hI.done j hj hlt
              have hby : ∀ b, b < 16 → M (buf + 8 + 16 * j + b) = M2 (buf + 8 + 16 * j + b) := fun b hb => by
                rw [o2 _ (by omega), o1 _ (by omega)]
              have hptr : rd M2 (buf + 8 + 16 * j + 8) 8 = rd M (buf + 8 + 16 * j + 8) 8 :=
                rd_shift fun c hc => by
                  have := hby (8 + c) (by omega)
                  rw [show buf + 8 + 16 * j + 8 + c = buf + 8 + 16 * j + (8 + c) by omega]; exact this.symm
              refine ⟨d1.congr hby ?_, ?_⟩
              · intro s' hs' x h1 h2
                have := d2 s' hs'
                rw [o2 x (by omega), o1 x (by omega)]
              · intro s' hs'
                have := d2 s' hs'
                rw [hptr]
                omega
          · intro j hij hj b hb
            rw [o2 _ (by omega), o1 _ (by omega), hI.todo j (by omega) hj b hb]
        have := ih (i + 1) (lr + (s.length + 1)) M2 (by omega) hI'
        rw [show buf + lr + (s.length + 1) = buf + (lr + (s.length + 1)) by omega]
        rw [← Nat.add_assoc lr (s.length + 1)]
        exact this
      · rw [assert_false (by simpa using hfit)]
        exact ⟨fun h => absurd h (by omega), fun _ => rfl⟩
    · have hty' : rd M0 (m + 8 + 16 * i) 4 ≠ tSymbol := fun h => hs (hel.type_sym.mp h)
      rw [if_neg (by simpa using hty')]
      have hz : symBytes vs[i] = 0 := by
        cases hv : vs[i] <;> simp only [symBytes]
        exact absurd ⟨_, hv⟩ hs
      rw [hz, Nat.zero_add]
      have hI' : CInv M0 m buf len vs (i + 1) lr M := by
        refine ⟨hlo, hhi, hI.out, hI.hdr, ?_, fun j h1 h2 => hI.todo j (by omega) h2⟩
        intro j hj hji
        by_cases hjeq : j = i
        · subst hjeq
          exact ⟨hel.shift (hI.todo j (by omega) hj) (fun s h => hs ⟨s, h⟩), fun s h => absurd ⟨s, h⟩ hs⟩
        · exact hI.done j hj (by omega)
      exact ih (i + 1) lr M (by omega) hI'

/-- `msg_copyToBuffer` succeeds exactly when the buffer has room for the self-contained copy -/
theorem copyToBuffer_spec {fuel : Nat} {M : Mem} {m buf len t : Nat} {vs : List Val}
    (hsrc : Src fuel M m buf len t vs) (h64 : buf + len ≤ 2^64) :
    (needed vs ≤ len → ∃ M', copyToBuffer fuel M m buf len = .ok M' ∧ IsMsg M' buf t vs ∧
      getSize M' buf = needed vs % 2^16 ∧
      (∀ i (h : i < vs.length) s, vs[i] = .sym s → buf + (8 + 16 * vs.length) ≤ rd M' (buf + 8 + 16 * i + 8) 8 ∧
        rd M' (buf + 8 + 16 * i + 8) 8 + s.length < buf + needed vs) ∧
      ∀ x, x < buf ∨ buf + needed vs ≤ x → M' x = M x) ∧
    (len < needed vs → copyToBuffer fuel M m buf len = .error .assertFail) := by
  have hpos := hsrc.pos
  have hcore := hsrc.core
  unfold copyToBuffer
  rw [hsrc.msg.num, coreSize_ok hpos]
  simp only [bind, Except.bind]
  unfold needed
  by_cases hfit : 8 + 16 * vs.length ≤ len
  · rw [assert_true (by simpa using hfit)]
    simp only
    have hI : CInv M m buf len vs 0 (8 + 16 * vs.length) (memcpy M buf m (8 + 16 * vs.length)) := by
      refine ⟨Nat.le_refl _, hfit, fun x hx => memcpy_out (by omega), ?_, fun j _ h => absurd h (by omega), ?_⟩
      · intro j hj
        exact memcpy_in (by omega)
      · intro j _ hj b hb
        have := memcpy_in (M := M) (d := buf) (s := m) (n := 8 + 16 * vs.length) (i := 8 + 16 * j + b) (by omega)
        rw [show buf + 8 + 16 * j + b = buf + (8 + 16 * j + b) by omega,
          show m + 8 + 16 * j + b = m + (8 + 16 * j + b) by omega]
        exact this
    have hspec := copyLoop_spec hsrc h64 vs.length 0 (8 + 16 * vs.length) _ (by omega) hI
    rw [List.drop_zero] at hspec
    refine ⟨fun h => ?_, fun h => ?_⟩
    · obtain ⟨M', e1, c⟩ := hspec.1 h
      rw [show buf + (8 + 16 * vs.length) = buf + (8 + 16 * vs.length) from rfl]
      rw [e1]
      simp only
      have hlo := c.lo
      have ow : ∀ v x, x < buf + 6 ∨ buf + 8 ≤ x → wr M' (buf + 6) 2 v x = M' x := fun v x hx => wr_out (by omega)
      refine ⟨_, rfl, ⟨?_, ?_, ?_⟩, ?_, ?_, ?_⟩
      · rw [← hsrc.msg.ts]
        unfold getTimestamp
        apply rd_shift
        intro j hj
        rw [ow _ _ (by omega), c.hdr j (by omega)]
      · rw [← hsrc.msg.num]
        unfold numElements
        apply rd_shift
        intro j hj
        rw [ow _ _ (by omega)]
        have := c.hdr (4 + j) (by omega)
        rw [show buf + 4 + j = buf + (4 + j) by omega, show m + 4 + j = m + (4 + j) by omega]
        exact this
      · intro i hi
        obtain ⟨d1, d2⟩ := c.done i hi hi
        refine d1.congr (fun b hb => (ow _ _ (by omega)).symm) ?_
        intro s hs x h1 h2
        have := d2 s hs
        exact (ow _ _ (by omega)).symm
      · unfold getSize; rw [rd_wr]
      · intro i hi s hs
        obtain ⟨-, d2⟩ := c.done i hi hi
        have := d2 s hs
        rw [rd_wr_out (by omega)]
        omega
      · intro x hx
        rw [wr_out (by omega), c.out x hx]
    · rw [hspec.2 h]
  · rw [assert_false (by simpa using hfit)]
    exact ⟨fun h => absurd h (by omega), fun _ => rfl⟩

end Verif.Msg
