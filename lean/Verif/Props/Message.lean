import Verif.MessageProofs
/-!
# Properties C13, C14, C15: messages
-/
namespace Verif.Msg
open Mem

/-! ## C13: copying -/

/-- the text of every symbol of the message at `a` lies between the message core and `a + size` -/
def SelfContained (M : Mem) (a size : Nat) (vs : List Val) : Prop :=
  ∀ i (h : i < vs.length) s, vs[i] = .sym s →
    a + (8 + 16 * vs.length) ≤ rd M (a + 8 + 16 * i + 8) 8 ∧ rd M (a + 8 + 16 * i + 8) 8 + s.length < a + size

/-- **C13** `msg_copyToBuffer(m, buf, len)`: if the buffer is large enough for the message and its text, the
copy is a message with the same timestamp and elements, with its text inside itself, it records its own size,
and no byte outside the `needed` first bytes of the buffer is changed.  Otherwise an assertion stops the
program before any byte outside the buffer is written. -/
theorem copyToBuffer_correct (fuel : Nat) (M : Mem) (m buf len t : Nat) (vs : List Val)
    (hsrc : Src fuel M m buf len t vs) (h64 : buf + len ≤ 2^64) :
    (needed vs ≤ len → ∃ M', copyToBuffer fuel M m buf len = .ok M' ∧ IsMsg M' buf t vs ∧
      SelfContained M' buf (needed vs) vs ∧ getSize M' buf = needed vs % 2^16 ∧
      ∀ x, x < buf ∨ buf + needed vs ≤ x → M' x = M x) ∧
    (len < needed vs → copyToBuffer fuel M m buf len = .error .assertFail) := by
  obtain ⟨h1, h2⟩ := copyToBuffer_spec hsrc h64
  refine ⟨fun h => ?_, h2⟩
  obtain ⟨M', e1, e2, e3, e4, e5⟩ := h1 h
  exact ⟨M', e1, e2, e4, e3, e5⟩

/-- **C13** the original is not changed by copying it. -/
theorem copy_keeps_original (fuel : Nat) (M : Mem) (m buf len t : Nat) (vs : List Val)
    (hsrc : Src fuel M m buf len t vs) (h64 : buf + len ≤ 2^64) (M' : Mem)
    (hc : copyToBuffer fuel M m buf len = .ok M') : IsMsg M' m t vs ∧ getSize M' m = getSize M m := by
  obtain ⟨h1, h2⟩ := copyToBuffer_spec hsrc h64
  by_cases hn : needed vs ≤ len
  · obtain ⟨M'', e1, -, -, -, e5⟩ := h1 hn
    rw [hc] at e1
    cases e1
    have hcore := hsrc.core
    have hpos := hsrc.pos
    have same : ∀ x, m ≤ x → x < m + (8 + 16 * vs.length) → M' x = M x := fun x g1 g2 => e5 x (by omega)
    refine ⟨⟨?_, ?_, ?_⟩, ?_⟩
    · rw [← hsrc.msg.ts]; exact rd_congr fun x g1 g2 => same x (by omega) (by omega)
    · rw [← hsrc.msg.num]; exact rd_congr fun x g1 g2 => same x (by omega) (by omega)
    · intro i hi
      refine (hsrc.msg.elem i hi).congr (fun b hb => (same _ (by omega) (by omega)).symm) ?_
      intro s hs x g1 g2
      have := (hsrc.strs i hi s hs).1
      exact (e5 x (by omega)).symm
    · exact rd_congr fun x g1 g2 => same x (by omega) (by omega)
  · rw [h2 (by omega)] at hc; cases hc

/-- **C13** `msg_copy(m)` into freshly allocated memory of `msg_getSize(m)` bytes succeeds exactly when that
declared size is large enough, and then yields an equal, self-contained message. -/
theorem copy_correct (fuel : Nat) (M : Mem) (m r t : Nat) (vs : List Val)
    (hsrc : Src fuel M m r (getSize M m) t vs) (h64 : r + getSize M m ≤ 2^64) :
    (needed vs ≤ getSize M m → ∃ M', copy fuel M m r = .ok M' ∧ IsMsg M' r t vs ∧
      SelfContained M' r (needed vs) vs ∧ getSize M' r = needed vs ∧
      ∀ x, x < r ∨ r + needed vs ≤ x → M' x = M x) ∧
    (getSize M m < needed vs → copy fuel M m r = .error .assertFail) := by
  obtain ⟨h1, h2⟩ := copyToBuffer_correct fuel M m r (getSize M m) t vs hsrc h64
  refine ⟨fun h => ?_, h2⟩
  obtain ⟨M', e1, e2, e3, e4, e5⟩ := h1 h
  refine ⟨M', e1, e2, e3, ?_, e5⟩
  have : getSize M m < 256 ^ 2 := rd_lt M (m + 6) 2
  rw [e4, Nat.mod_eq_of_lt (by omega)]

/-- **C13** A copy can be copied again: copying a self-contained copy needs exactly the size it declares. -/
theorem copy_of_copy (fuel : Nat) (M : Mem) (a b t : Nat) (vs : List Val) (hm : IsMsg M a t vs) (hpos : 0 < vs.length)
    (hsc : SelfContained M a (needed vs) vs) (hsz : getSize M a = needed vs)
    (hf : ∀ s, Val.sym s ∈ vs → s.length < fuel)
    (hd : a + needed vs ≤ b ∨ b + needed vs ≤ a) (h64 : b + needed vs ≤ 2^64) :
    ∃ M', copy fuel M a b = .ok M' ∧ IsMsg M' b t vs ∧ SelfContained M' b (needed vs) vs ∧ getSize M' b = needed vs := by
  have hn : 8 + 16 * vs.length ≤ needed vs := by unfold needed; omega
  have hsrc : Src fuel M a b (getSize M a) t vs := by
    rw [hsz]
    refine ⟨hm, hpos, by omega, fun i hi s hs => ⟨?_, hf s (hs ▸ List.getElem_mem hi)⟩⟩
    have := hsc i hi s hs
    omega
  obtain ⟨M', e1, e2, e3, e4, -⟩ := (copy_correct fuel M a b t vs hsrc (by omega)).1 (by omega)
  exact ⟨M', e1, e2, e3, e4⟩

/-! ## C14: declared size -/

/-- arguments of `msg_setBang/Float/Symbol/Hash` -/
inductive Put
  | bang
  | float (f : BitVec 32)
  | sym (p : Nat)
  | hash (h : BitVec 32)

/-- call the setter -/
def put (fuel : Nat) (M : Mem) (m : Nat) (i : Int) : Put → R Mem
  | .bang => setBang M m i
  | .float f => setFloat M m i f
  | .sym p => setSymbol fuel M m i p
  | .hash h => setHash M m i h

/-- the setter calls of a list of setter calls with their meaning -/
def args (ps : List (Nat × Put × Val)) : List (Nat × Put) := ps.map fun p => (p.1, p.2.1)

def puts (fuel : Nat) (M : Mem) (m : Nat) : List (Nat × Put) → R Mem
  | [] => .ok M
  | (i, p) :: ps => do puts fuel (← put fuel M m i p) m ps

/-- the argument means the element `v` in memory `M`; its text is not inside `[a, b)` -/
def PutIs (fuel : Nat) (M : Mem) (a b : Nat) : Put → Val → Prop
  | .bang, .bang => True
  | .float f, .float g => f = g
  | .hash f, .hash g => f = g
  | .sym p, .sym s => 0 < p ∧ p < 2^64 ∧ IsStr M p s ∧ (p + s.length < a ∨ b ≤ p) ∧ s.length < fuel
  | _, _ => False

/-- the elements after setter calls, `none` for an element never set -/
def after (n : Nat) (ps : List (Nat × Put × Val)) : List (Option Val) :=
  ps.foldl (fun vs p => vs.set p.1 (some p.2.2)) (List.replicate n none)

theorem PutIs.congr {fuel : Nat} {M N : Mem} {a b : Nat} {p : Put} {v : Val} (h : PutIs fuel M a b p v)
    (hMN : ∀ x, x < a ∨ b ≤ x → M x = N x) : PutIs fuel N a b p v := by
  cases p <;> cases v <;> simp only [PutIs] at *
  case float => exact h
  case hash => exact h
  case sym p s => exact ⟨h.1, h.2.1, h.2.2.1.congr (fun x h1 h2 => hMN x (by omega)), h.2.2.2⟩

theorem put_spec {fuel : Nat} {M : Mem} {m n i : Nat} {p : Put} {v : Val} (hn : numElements M m = n) (hi : i < n)
    (hp : PutIs fuel M m (m + (8 + 16 * n)) p v) :
    ∃ M', put fuel M m (i : Int) p = .ok M' ∧ ElemIs M' (m + 8 + 16 * i) v ∧
      (∀ x, x < m + 6 ∨ m + 8 ≤ x ∧ x < m + 8 + 16 * i ∨ m + 8 + 16 * i + 16 ≤ x → M' x = M x) ∧
      getSize M' m = (getSize M m + symBytes v) % 2^16 := by
  have hsz : getSize M m < 256 ^ 2 := rd_lt M (m + 6) 2
  have hea := elemAddr_ok (M := M) (m := m) (i := i) (by omega)
  cases p <;> cases v <;> simp only [PutIs] at hp
  case bang =>
    simp only [put, setBang, hea, bind, Except.bind]
    refine ⟨_, rfl, ?_, fun x hx => ?_, ?_⟩
    · simp only [ElemIs]; rw [rd_wr_out (by omega), rd_wr_lt (by decide)]
    · rw [wr_out (by omega), wr_out (by omega)]
    · simp only [getSize, symBytes, Nat.add_zero] at *
      rw [rd_wr_out (by omega), rd_wr_out (by omega), Nat.mod_eq_of_lt (by omega)]
  case float f g =>
    subst hp
    simp only [put, setFloat, hea, bind, Except.bind]
    refine ⟨_, rfl, ?_, fun x hx => ?_, ?_⟩
    · simp only [ElemIs]
      exact ⟨by rw [rd_wr_out (by omega), rd_wr_lt (by decide)], by rw [rd_wr_lt (by have := f.isLt; omega)]⟩
    · rw [wr_out (by omega), wr_out (by omega)]
    · simp only [getSize, symBytes, Nat.add_zero] at *
      rw [rd_wr_out (by omega), rd_wr_out (by omega), Nat.mod_eq_of_lt (by omega)]
  case hash f g =>
    subst hp
    simp only [put, setHash, hea, bind, Except.bind]
    refine ⟨_, rfl, ?_, fun x hx => ?_, ?_⟩
    · simp only [ElemIs]
      exact ⟨by rw [rd_wr_out (by omega), rd_wr_lt (by decide)], by rw [rd_wr_lt (by have := f.isLt; omega)]⟩
    · rw [wr_out (by omega), wr_out (by omega)]
    · simp only [getSize, symBytes, Nat.add_zero] at *
      rw [rd_wr_out (by omega), rd_wr_out (by omega), Nat.mod_eq_of_lt (by omega)]
  case sym p s =>
    obtain ⟨h0, h64, hs, hd, hf⟩ := hp
    simp only [put, setSymbol, hea, bind, Except.bind]
    rw [assert_true (by simp; omega)]
    simp only
    have hs' : IsStr (wr (wr M (m + 8 + 16 * i) 4 tSymbol) (m + 8 + 16 * i + 8) 8 p) p s :=
      hs.congr fun x h1 h2 => by rw [wr_out (by omega), wr_out (by omega)]
    rw [strlenR_ok hs' hf]
    refine ⟨_, rfl, ?_, fun x hx => ?_, ?_⟩
    · have r2 (v : Nat) : rd (wr (wr (wr M (m + 8 + 16 * i) 4 tSymbol) (m + 8 + 16 * i + 8) 8 p) (m + 6) 2 v)
          (m + 8 + 16 * i + 8) 8 = p := by rw [rd_wr_out (by omega), rd_wr_lt (by omega)]
      simp only [ElemIs]
      rw [r2]
      refine ⟨?_, by omega, hs'.congr fun x h1 h2 => (wr_out (by omega)).symm⟩
      rw [rd_wr_out (by omega), rd_wr_out (by omega), rd_wr_lt (by decide)]
    · rw [wr_out (by omega), wr_out (by omega), wr_out (by omega)]
    · simp only [getSize, symBytes] at *
      rw [rd_wr, rd_wr_out (by omega), rd_wr_out (by omega)]
      omega

/-- state of a message under construction -/
structure Building (M0 M : Mem) (m n t : Nat) (size : Nat) (vs : List (Option Val)) : Prop where
  len : vs.length = n
  ts : getTimestamp M m = t
  num : numElements M m = n
  size : getSize M m = size % 2^16
  elem : ∀ (i : Nat) (h : i < vs.length) v, vs[i] = some v → ElemIs M (m + 8 + 16 * i) v ∧
    ∀ s, v = .sym s → (rd M (m + 8 + 16 * i + 8) 8 + s.length < m ∨ m + (8 + 16 * n) ≤ rd M (m + 8 + 16 * i + 8) 8)
  out : ∀ x, x < m ∨ m + (8 + 16 * n) ≤ x → M x = M0 x

theorem put_sym_ptr {fuel : Nat} {M M' : Mem} {m n i p : Nat} {s : List Byte} (hn : numElements M m = n) (hi : i < n)
    (hp : PutIs fuel M m (m + (8 + 16 * n)) (.sym p) (.sym s)) (h : put fuel M m (i : Int) (.sym p) = .ok M') :
    rd M' (m + 8 + 16 * i + 8) 8 = p := by
  have hea := elemAddr_ok (M := M) (m := m) (i := i) (by omega)
  simp only [PutIs] at hp
  obtain ⟨h0, h64, hs, hd, hf⟩ := hp
  simp only [put, setSymbol, hea, bind, Except.bind] at h
  rw [assert_true (by simp; omega)] at h
  simp only at h
  have hs' : IsStr (wr (wr M (m + 8 + 16 * i) 4 tSymbol) (m + 8 + 16 * i + 8) 8 p) p s :=
    hs.congr fun x h1 h2 => by rw [wr_out (by omega), wr_out (by omega)]
  rw [strlenR_ok hs' hf] at h
  cases h
  rw [rd_wr_out (by omega), rd_wr_lt (by omega)]

theorem puts_spec {fuel : Nat} {M0 M : Mem} {m n t size : Nat} {vs : List (Option Val)}
    (hB : Building M0 M m n t size vs) (ps : List (Nat × Put × Val))
    (hps : ∀ p ∈ ps, p.1 < n ∧ PutIs fuel M0 m (m + (8 + 16 * n)) p.2.1 p.2.2) :
    ∃ M', puts fuel M m (args ps) = .ok M' ∧
      Building M0 M' m n t (size + (ps.map fun p => symBytes p.2.2).sum)
        (ps.foldl (fun vs p => vs.set p.1 (some p.2.2)) vs) := by
  induction ps generalizing M size vs with
  | nil => exact ⟨M, rfl, by simpa using hB⟩
  | cons p ps ih =>
    obtain ⟨i, p, v⟩ := p
    obtain ⟨hi, hp⟩ := hps (i, p, v) (by simp)
    simp only at hi hp
    have hpM := hp.congr (N := M) fun x hx => (hB.out x hx).symm
    obtain ⟨M1, e1, e2, e3, e4⟩ := put_spec hB.num hi hpM
    have hB1 : Building M0 M1 m n t (size + symBytes v) (vs.set i (some v)) := by
      refine ⟨by simp [hB.len], ?_, ?_, ?_, ?_, ?_⟩
      · rw [← hB.ts]; exact rd_congr fun x _ _ => e3 x (by omega)
      · rw [← hB.num]; exact rd_congr fun x _ _ => e3 x (by omega)
      · rw [e4, hB.size]; omega
      · intro j hj w hw
        simp only [List.length_set] at hj
        rw [List.getElem_set] at hw
        split at hw
        · rename_i hij
          subst hij
          cases hw
          refine ⟨e2, fun s hs => ?_⟩
          subst hs
          cases p <;> simp only [PutIs] at hpM
          rename_i q
          rw [put_sym_ptr hB.num hi hpM e1]
          exact hpM.2.2.2.1
        · obtain ⟨k1, k2⟩ := hB.elem j hj w hw
          have hby : ∀ b, b < 16 → M (m + 8 + 16 * j + b) = M1 (m + 8 + 16 * j + b) :=
            fun b hb => (e3 _ (by omega)).symm
          have hlen := hB.len
          have hptr : rd M1 (m + 8 + 16 * j + 8) 8 = rd M (m + 8 + 16 * j + 8) 8 :=
            rd_shift fun c hc => by
              have := hby (8 + c) (by omega)
              rw [show m + 8 + 16 * j + 8 + c = m + 8 + 16 * j + (8 + c) by omega]; exact this.symm
          refine ⟨k1.congr hby fun s hs x g1 g2 => ?_, fun s hs => by rw [hptr]; exact k2 s hs⟩
          have := k2 s hs
          exact (e3 x (by omega)).symm
      · intro x hx
        rw [e3 x (by omega), hB.out x hx]
    obtain ⟨M', f1, f2⟩ := ih hB1 (fun q hq => hps q (by simp [hq]))
    refine ⟨M', ?_, ?_⟩
    · simp only [args, List.map_cons, puts, e1, bind, Except.bind]
      exact f1
    · simp only [List.map_cons, List.sum_cons, List.foldl_cons]
      rw [← Nat.add_assoc]
      exact f2

theorem init_spec {M : Mem} {m n t : Nat} (hn : 0 < n) (hn16 : n < 2^16) (ht : t < 2^32) :
    ∃ M', init M m n t = .ok M' ∧ Building M M' m n t (8 + 16 * n) (List.replicate n none) := by
  unfold init
  rw [coreSize_ok hn]
  simp only [bind, Except.bind]
  refine ⟨_, rfl, by simp, ?_, ?_, ?_, ?_, ?_⟩
  · unfold getTimestamp
    rw [rd_wr_out (by omega), rd_wr_out (by omega), rd_wr_lt (by omega)]
  · unfold numElements
    rw [rd_wr_out (by omega), rd_wr_lt (by omega)]
  · unfold getSize
    rw [rd_wr]
  · intro i h v hv
    simp at hv
  · intro x hx
    rw [wr_out (by omega), wr_out (by omega), wr_out (by omega)]

/-- **C14 (any history of setters)** A message of `n` elements is initialised and its elements are then
set in any order, any number of times.  If in the end every element has been set, the message is the list of
values last set, and the declared size is the core size plus the bytes of every symbol ever set (16-bit). -/
theorem built_message (fuel : Nat) (M : Mem) (m n t : Nat) (hn : 0 < n) (hn16 : n < 2^16) (ht : t < 2^32)
    (ps : List (Nat × Put × Val))
    (hps : ∀ p ∈ ps, p.1 < n ∧ PutIs fuel M m (m + (8 + 16 * n)) p.2.1 p.2.2)
    (vs : List Val) (hvs : after n ps = vs.map some) :
    ∃ M' : Mem, (do puts fuel (← init M m n t) m (args ps)) = .ok M' ∧
      IsMsg M' m t vs ∧ getSize M' m = (8 + 16 * n + (ps.map fun p => symBytes p.2.2).sum) % 2^16 ∧
      ∀ x, x < m ∨ m + (8 + 16 * n) ≤ x → M' x = M x := by
  obtain ⟨M1, e1, hB⟩ := init_spec (M := M) (m := m) hn hn16 ht
  obtain ⟨M2, e2, hB2⟩ := puts_spec hB ps hps
  refine ⟨M2, ?_, ⟨hB2.ts, ?_, ?_⟩, hB2.size, hB2.out⟩
  · simp only [e1, bind, Except.bind]
    exact e2
  · have := hB2.len
    unfold after at hvs
    rw [hvs] at this
    simp at this
    rw [hB2.num]; exact this.symm
  · intro i hi
    unfold after at hvs
    have := hB2.elem i (by rw [hvs]; simpa using hi) vs[i] (by simp [hvs])
    exact this.1

theorem sum_after_le (n : Nat) (ps : List (Nat × Put × Val)) (vs : List (Option Val)) (ws : List Val)
    (h : ps.foldl (fun vs p => vs.set p.1 (some p.2.2)) vs = ws.map some) (hlen : vs.length = n) :
    (ws.map symBytes).sum ≤ (vs.map fun o => (o.map symBytes).getD 0).sum + (ps.map fun p => symBytes p.2.2).sum := by
  induction ps generalizing vs with
  | nil =>
    simp only [List.foldl_nil] at h
    subst h
    simp [Function.comp_def]
  | cons p ps ih =>
    simp only [List.foldl_cons] at h
    have := ih _ h (by simpa using hlen)
    simp only [List.map_cons, List.sum_cons]
    refine Nat.le_trans this ?_
    have key : ((vs.set p.1 (some p.2.2)).map fun o => (o.map symBytes).getD 0).sum ≤
        (vs.map fun o => (o.map symBytes).getD 0).sum + symBytes p.2.2 := by
      clear this ih h hlen
      generalize p.1 = i
      induction vs generalizing i with
      | nil => simp
      | cons a vs ihv => cases i with
        | zero => simp; omega
        | succ i => have := ihv i; simp at *; omega
    omega

/-- **C14 (never too small)** After any history of setters that sets every element, the declared size is at
least what a self-contained copy needs, so `msg_copy` of the message cannot fail (as long as the 16-bit size
does not overflow). -/
theorem declared_size_never_too_small (fuel : Nat) (M : Mem) (m n t : Nat) (hn : 0 < n) (hn16 : n < 2^16) (ht : t < 2^32)
    (ps : List (Nat × Put × Val))
    (hps : ∀ p ∈ ps, p.1 < n ∧ PutIs fuel M m (m + (8 + 16 * n)) p.2.1 p.2.2)
    (vs : List Val) (hvs : after n ps = vs.map some)
    (hfit : 8 + 16 * n + (ps.map fun p => symBytes p.2.2).sum < 2^16) :
    ∃ M' : Mem, (do puts fuel (← init M m n t) m (args ps)) = .ok M' ∧
      IsMsg M' m t vs ∧ needed vs ≤ getSize M' m := by
  obtain ⟨M', e1, e2, e3, -⟩ := built_message fuel M m n t hn hn16 ht ps hps vs hvs
  refine ⟨M', e1, e2, ?_⟩
  rw [e3, Nat.mod_eq_of_lt hfit]
  have h1 := sum_after_le n ps (List.replicate n none) vs hvs (by simp)
  have h2 : ((List.replicate n (none : Option Val)).map fun o => (o.map symBytes).getD 0).sum = 0 := by
    simp
  have h3 : vs.length = n := by
    have : (after n ps).length = n := by
      unfold after
      suffices h : ∀ (ps : List (Nat × Put × Val)) (l : List (Option Val)),
          (ps.foldl (fun vs p => vs.set p.1 (some p.2.2)) l).length = l.length by
        rw [h]; simp
      intro ps
      induction ps with
      | nil => simp
      | cons p ps ih => intro l; simp [ih]
    rw [hvs] at this; simpa using this
  unfold needed
  omega

theorem after_once (ps : List (Nat × Put × Val)) (hnd : (ps.map (·.1)).Nodup) (l : List (Option Val))
    (hb : ∀ p ∈ ps, p.1 < l.length) (hl : ∀ p ∈ ps, l[p.1]? = some none) :
    ((ps.foldl (fun vs p => vs.set p.1 (some p.2.2)) l).map fun o => (o.map symBytes).getD 0).sum =
      (l.map fun o => (o.map symBytes).getD 0).sum + (ps.map fun p => symBytes p.2.2).sum := by
  induction ps generalizing l with
  | nil => simp
  | cons p ps ih =>
    simp only [List.foldl_cons, List.map_cons, List.sum_cons]
    simp only [List.map_cons, List.nodup_cons] at hnd
    rw [ih hnd.2]
    · have h1 : l[p.1]? = some none := hl p (by simp)
      have key : ((l.set p.1 (some p.2.2)).map fun o => (o.map symBytes).getD 0).sum =
          (l.map fun o => (o.map symBytes).getD 0).sum + symBytes p.2.2 := by
        clear hl hb ih hnd
        generalize p.1 = i at *
        induction l generalizing i with
        | nil => simp at h1
        | cons a l ihl => cases i with
          | zero => simp at h1; subst h1; simp; omega
          | succ i => simp at h1; have := ihl i h1; simp at *; omega
      omega
    · intro q hq; simp; exact hb q (by simp [hq])
    · intro q hq
      rw [List.getElem?_set_ne]
      · exact hl q (by simp [hq])
      · intro he; exact hnd.1 (List.mem_map.mpr ⟨q, hq, he.symm⟩)

/-- **C14** A message whose elements are each set exactly once declares exactly the size that a
self-contained copy needs.
Partial: only for messages built by `msg_init` and one setter call per element, and below 64 kB. -/
theorem declared_size_exact_partial (fuel : Nat) (M : Mem) (m n t : Nat) (hn : 0 < n) (hn16 : n < 2^16) (ht : t < 2^32)
    (ps : List (Nat × Put × Val))
    (hps : ∀ p ∈ ps, p.1 < n ∧ PutIs fuel M m (m + (8 + 16 * n)) p.2.1 p.2.2)
    (honce : (ps.map (·.1)).Nodup)
    (vs : List Val) (hvs : after n ps = vs.map some) (hfit : needed vs < 2^16) :
    ∃ M' : Mem, (do puts fuel (← init M m n t) m (args ps)) = .ok M' ∧
      IsMsg M' m t vs ∧ getSize M' m = needed vs := by
  obtain ⟨M', e1, e2, e3, -⟩ := built_message fuel M m n t hn hn16 ht ps hps vs hvs
  refine ⟨M', e1, e2, ?_⟩
  have h1 := after_once ps honce (List.replicate n none) (by simpa using fun a b c h => (hps _ h).1)
    (by intro p hp; rw [List.getElem?_replicate]; simp [(hps p hp).1])
  have hvs' := hvs
  unfold after at hvs'
  rw [hvs'] at h1
  have h2 : ((List.replicate n (none : Option Val)).map fun o => (o.map symBytes).getD 0).sum = 0 := by simp
  have h3 : (List.map (fun o => (o.map symBytes).getD 0) (vs.map some)).sum = (vs.map symBytes).sum := by
    simp [Function.comp_def]
  have h4 : vs.length = n := by
    obtain ⟨_, _, hB⟩ := init_spec (M := M) (m := m) hn hn16 ht
    obtain ⟨_, _, hB2⟩ := puts_spec hB ps hps
    have := hB2.len
    rw [hvs'] at this
    simpa using this
  rw [e3]
  unfold needed at *
  rw [Nat.mod_eq_of_lt (by omega)]
  omega

/-- **C14** holds for `msg_initWithFloat`, `msg_initWithBang` and `msg_initWithHash`. -/
theorem declared_size_initWith (M : Mem) (m t : Nat) (f : BitVec 32) :
    (∃ M', initWithFloat M m t f = .ok M' ∧ getSize M' m = needed [.float f]) ∧
    (∃ M', initWithBang M m t = .ok M' ∧ getSize M' m = needed [.bang]) ∧
    (∃ M', initWithHash M m t f = .ok M' ∧ getSize M' m = needed [.hash f]) := by
  have hn : ∀ b, numElements (initHeader M m t b) m = 1 := fun b => by
    unfold numElements initHeader; rw [rd_wr_out (by omega), rd_wr_lt (by decide)]
  have hz : getSize (initHeader M m t 24) m = 24 := by
    unfold getSize initHeader; rw [rd_wr_lt (by decide)]
  have hf := put_spec (fuel := 1) (p := .float f) (v := .float f) (hn 24) (i := 0) (by omega) (by simp [PutIs])
  have hb := put_spec (fuel := 1) (p := .bang) (v := .bang) (hn 24) (i := 0) (by omega) (by simp [PutIs])
  have hh := put_spec (fuel := 1) (p := .hash f) (v := .hash f) (hn 24) (i := 0) (by omega) (by simp [PutIs])
  obtain ⟨M1, a1, -, -, a2⟩ := hf
  obtain ⟨M2, b1, -, -, b2⟩ := hb
  obtain ⟨M3, c1, -, -, c2⟩ := hh
  rw [hz] at a2 b2 c2
  exact ⟨⟨M1, a1, by rw [a2]; rfl⟩, ⟨M2, b1, by rw [b2]; rfl⟩, ⟨M3, c1, by rw [c2]; rfl⟩⟩

/-- **C14 is false for `msg_initWithSymbol`** (finding F5): it always declares `strlen(s)` bytes too many. -/
theorem initWithSymbol_overcounts (fuel : Nat) (M : Mem) (m t p : Nat) (s : List Byte)
    (ht : t < 2^32) (hp : PutIs fuel M m (m + 24) (.sym p) (.sym s)) (hfit : needed [.sym s] + s.length < 2^16) :
    ∃ M', initWithSymbol fuel M m t p = .ok M' ∧ IsMsg M' m t [.sym s] ∧ rd M' (m + 16) 8 = p ∧
      getSize M' m = needed [.sym s] + s.length := by
  have hnd : needed [.sym s] = 24 + (s.length + 1) := by simp [needed, symBytes]
  unfold initWithSymbol
  simp only [bind, Except.bind]
  have hout : ∀ x, x < m ∨ m + 24 ≤ x → wr (wr M m 4 t) (m + 4) 2 1 x = M x := fun x hx => by
    rw [wr_out (by omega), wr_out (by omega)]
  have hp1 := hp.congr (N := wr (wr M m 4 t) (m + 4) 2 1) fun x hx => (hout x hx).symm
  have hp1' := hp1
  simp only [PutIs] at hp1'
  rw [strlenR_ok hp1'.2.2.1 hp1'.2.2.2.2]
  simp only
  generalize hMg : wr (wr (wr M m 4 t) (m + 4) 2 1) (m + 6) 2 (24 + s.length % 2^16) = Mg
  have hn : numElements Mg m = 1 := by
    unfold numElements; rw [← hMg, rd_wr_out (by omega), rd_wr_lt (by decide)]
  have hz : getSize Mg m = 24 + s.length := by
    unfold getSize; rw [← hMg, rd_wr, Nat.mod_eq_of_lt (a := s.length) (by omega), Nat.mod_eq_of_lt (by omega)]
  have hp2 : PutIs fuel Mg m (m + (8 + 16 * 1)) (.sym p) (.sym s) :=
    hp1.congr fun x hx => by rw [← hMg]; exact (wr_out (by omega)).symm
  obtain ⟨M', e1, e2, e3, e4⟩ := put_spec hn (i := 0) (by omega) hp2
  have hkeep : ∀ x, m ≤ x → x < m + 6 → M' x = Mg x := fun x h1 h2 => e3 x (by omega)
  refine ⟨M', e1, ⟨?_, ?_, ?_⟩, ?_, ?_⟩
  · unfold getTimestamp
    rw [rd_congr fun x h1 h2 => hkeep x h1 (by omega), ← hMg, rd_wr_out (by omega), rd_wr_out (by omega),
      rd_wr_lt (by omega)]
  · unfold numElements at hn ⊢
    rw [rd_congr fun x h1 h2 => hkeep x (by omega) (by omega), hn]
    rfl
  · intro i hi
    have : i = 0 := by simp at hi; omega
    subst this
    exact e2
  · have := put_sym_ptr (i := 0) hn (by omega) hp2 e1
    rwa [show m + 8 + 16 * 0 + 8 = m + 16 by omega] at this
  · rw [e4, hz, hnd]
    simp only [symBytes]
    rw [Nat.mod_eq_of_lt (by omega)]
    omega

/-! ## C15: types, format and equality -/

/-- the format character of an element -/
def typeChar : Val → Byte
  | .bang => chB
  | .float _ => chF
  | .hash _ => chH
  | .sym _ => chS

/-- the type tag of an element -/
def tag : Val → Nat
  | .bang => tBang
  | .float _ => tFloat
  | .sym _ => tSymbol
  | .hash _ => tHash

theorem ElemIs.tag {M : Mem} {e : Nat} {v : Val} (h : ElemIs M e v) : rd M e 4 = tag v := by
  cases v <;> simp only [ElemIs] at h
  · exact h
  · exact h.1
  · exact h.1
  · exact h.1

/-- **C15** the type predicates: true exactly when the element exists and has that type; in particular
false for every index that is too large. -/
theorem isType_correct (M : Mem) (m t : Nat) (vs : List Val) (hm : IsMsg M m t vs) (ty i : Nat) :
    isType ty M m (i : Int) = .ok (decide (∃ v, vs[i]? = some v ∧ tag v = ty)) := by
  by_cases hi : i < vs.length
  · rw [isType_ok (by rw [hm.num]; exact hi), (hm.elem i hi).tag]
    simp only [List.getElem?_eq_getElem hi, Option.some.injEq, exists_eq_left']
    rfl
  · rw [isType_out (by rw [hm.num]; omega)]
    simp only [List.getElem?_eq_none (by omega : vs.length ≤ i)]
    simp

theorem formatLoop_spec (M : Mem) (m t : Nat) (vs : List Val) (hm : IsMsg M m t vs) (fmt : List Byte)
    (hz : ∀ c ∈ fmt, c ≠ 0) :
    ∀ k i, i + k = vs.length → i ≤ fmt.length → formatLoop M m fmt k i =
      .ok (decide ((vs.drop i).map typeChar = (fmt.drop i).take k)) := by
  intro k
  induction k with
  | zero =>
    intro i hik _
    simp [formatLoop, show vs.length = i by omega, List.drop_eq_nil_of_le]
  | succ k ih =>
    intro i hik hif
    have hi : i < vs.length := by omega
    have hel := hm.elem i hi
    have hdrop : (vs.drop i).map typeChar = typeChar vs[i] :: (vs.drop (i + 1)).map typeChar := by
      rw [List.drop_eq_getElem_cons hi]; rfl
    have hty : ∀ ty, isType ty M m (i : Int) = .ok (tag vs[i] == ty) := fun ty => by
      rw [isType_ok (by rw [hm.num]; exact hi), hel.tag]
    rw [hdrop]
    unfold formatLoop fmtAt
    by_cases hlt : i < fmt.length
    · have hfd : (fmt.drop i).take (k + 1) = fmt[i] :: (fmt.drop (i + 1)).take k := by
        rw [List.drop_eq_getElem_cons hlt, List.take_succ_cons]
      rw [hfd]
      simp only [hlt, dite_true, bind, Except.bind, hty]
      have hih := ih (i + 1) (by omega) (by omega)
      generalize fmt[i] = c
      generalize (vs.drop (i + 1)).map typeChar = l1 at *
      generalize (fmt.drop (i + 1)).take k = l2 at *
      generalize vs[i] = v
      rw [hih]
      cases v <;> simp only [typeChar, Msg.tag] <;>
        by_cases c1 : c = chB <;> by_cases c2 : c = chF <;> by_cases c3 : c = chH <;> by_cases c4 : c = chS <;>
        simp_all [chB, chF, chH, chS, tBang, tFloat, tHash, tSymbol] <;>
        (intro h; simp_all)
    · have hie : i = fmt.length := by omega
      rw [dif_neg hlt, if_pos hie, List.drop_eq_nil_of_le (by omega : fmt.length ≤ i)]
      simp [bind, Except.bind, chB, chF, chH, chS]

/-- **C15** `msg_hasFormat(m, fmt)` never reads past the end of the format string and is true exactly when
`fmt` lists the types of the elements of `m`, one character each. -/
theorem hasFormat_correct (M : Mem) (m t : Nat) (vs : List Val) (hm : IsMsg M m t vs) (fmt : List Byte)
    (hz : ∀ c ∈ fmt, c ≠ 0) : hasFormat M m fmt = .ok (decide (fmt = vs.map typeChar)) := by
  unfold hasFormat
  simp only [hm.num, formatLoop_spec M m t vs hm fmt hz vs.length 0 (by omega) (by omega)]
  simp only [List.drop_zero, bind, Except.bind]
  by_cases h : vs.map typeChar = fmt.take vs.length
  · rw [if_pos (by simpa using h)]
    have hl : vs.length ≤ fmt.length := by
      have := congrArg List.length h
      simp at this
      omega
    unfold fmtAt
    by_cases hlt : vs.length < fmt.length
    · simp only [hlt, dite_true]
      have h1 : fmt[vs.length] ≠ 0 := hz _ (List.getElem_mem hlt)
      have h2 : fmt ≠ vs.map typeChar := by
        intro he; have := congrArg List.length he; simp at this; omega
      simp only [h2, decide_false, Except.ok.injEq]
      simpa using h1
    · have hle : vs.length = fmt.length := by omega
      rw [dif_neg hlt, if_pos hle]
      rw [hle, List.take_length] at h
      simp [h]
  · rw [if_neg (by simpa using h)]
    have h2 : fmt ≠ vs.map typeChar := by
      intro he
      apply h
      rw [he, List.take_of_length_le (by rw [List.length_map]; exact Nat.le_refl _)]
    simp [h2]

/-- two elements are equal in type and value (floats by IEEE comparison) -/
def SameVal : Val → Val → Prop
  | .bang, .bang => True
  | .float f, .float g => feq f g = true
  | .sym s, .sym u => s = u
  | .hash h, .hash k => h = k
  | _, _ => False

theorem sameVal_bool (v w : Val) : ∃ b : Bool, (b = true ↔ SameVal v w) ∧ b = (match v, w with
    | .bang, .bang => true
    | .float f, .float g => feq f g
    | .sym s, .sym u => s == u
    | .hash h, .hash k => h == k
    | _, _ => false) := by
  refine ⟨_, ?_, rfl⟩
  cases v <;> cases w <;> simp [SameVal]

/-- `msg_getHash` of every kind of element -/
def hashOf : Val → BitVec 32
  | .bang => 0xFFFFFFFF#32
  | .float f => f
  | .sym s => Hash.cHash true false s
  | .hash h => h

theorem getHash_correct (fuel : Nat) (M : Mem) (m t : Nat) (vs : List Val) (hm : IsMsg M m t vs) (i : Nat)
    (hi : i < vs.length) (hf : ∀ s, vs[i] = .sym s → s.length < fuel) :
    getHash fuel M m (i : Int) = .ok (hashOf vs[i]) := by
  have hnum : i < numElements M m := by rw [hm.num]; exact hi
  have hel := hm.elem i hi
  unfold getHash
  rw [assert_true (by simpa using hnum), getType_ok hnum, hel.tag]
  simp only [bind, Except.bind]
  generalize vs[i] = v at *
  cases v with
  | bang => simp [Msg.tag, hashOf]
  | float f =>
    simp only [ElemIs] at hel
    simp only [Msg.tag, tFloat, tBang, hashOf, getFloat, elemAddr_ok hnum, bind, Except.bind, hel.2]
    simp
  | hash f =>
    simp only [ElemIs] at hel
    simp only [Msg.tag, tFloat, tBang, tHash, tSymbol, hashOf, elemAddr_ok hnum, hel.2]
    simp
  | sym s =>
    simp only [ElemIs] at hel
    simp only [Msg.tag, tFloat, tBang, tSymbol, hashOf, getSymbol_ok hnum, strHash]
    rw [if_neg hel.2.1]
    simp only [bind, Except.bind]
    rw [strlenR_ok hel.2.2 (hf s rfl)]
    simp [hel.2.2.chars]

/-- **C15** `msg_equalsElement` is true exactly when both elements exist and are equal in type and value. -/
theorem equalsElement_correct (fuel : Nat) (M : Mem) (m t n u : Nat) (vs ws : List Val) (hm : IsMsg M m t vs)
    (hn : IsMsg M n u ws) (hf : ∀ s, Val.sym s ∈ vs ++ ws → s.length < fuel) (i j : Nat) :
    ∃ b, equalsElement fuel M m (i : Int) n (j : Int) = .ok b ∧
      (b = true ↔ ∃ v w, vs[i]? = some v ∧ ws[j]? = some w ∧ SameVal v w) := by
  unfold equalsElement
  by_cases hij : i < vs.length ∧ j < ws.length
  · obtain ⟨hi, hj⟩ := hij
    have hnm : i < numElements M m := by rw [hm.num]; exact hi
    have hnn : j < numElements M n := by rw [hn.num]; exact hj
    rw [if_pos ⟨by omega, by omega⟩, getType_ok hnm, getType_ok hnn]
    have h1 := hm.elem i hi
    have h2 := hn.elem j hj
    have g1 := getHash_correct fuel M m t vs hm i hi (fun s hs => hf s (by simp [← hs]))
    have g2 := getHash_correct fuel M n u ws hn j hj (fun s hs => hf s (by simp [← hs]))
    have f1 : ∀ s, vs[i] = .sym s → s.length < fuel := fun s hs => hf s (by simp [← hs])
    have f2 : ∀ s, ws[j] = .sym s → s.length < fuel := fun s hs => hf s (by simp [← hs])
    obtain ⟨b, hb1, hb2⟩ := sameVal_bool vs[i] ws[j]
    refine ⟨b, ?_, by rw [hb1]; simp [List.getElem?_eq_getElem hi, List.getElem?_eq_getElem hj]⟩
    rw [hb2]
    clear hb1 hb2
    simp only [h1.tag, h2.tag, bind, Except.bind, g1, g2, compareSymbol, getType_ok hnm, getFloat, elemAddr_ok hnm,
      elemAddr_ok hnn, getSymbol_ok hnm, getSymbol_ok hnn]
    generalize vs[i] = v at *
    generalize ws[j] = w at *
    cases v <;> cases w <;> simp only [Msg.tag, tBang, tFloat, tSymbol, tHash]
    case bang.bang => simp
    case float.float f g =>
      simp only [ElemIs] at h1 h2
      simp [h1.2, h2.2]
    case sym.sym s r =>
      simp only [ElemIs] at h1 h2
      simp only [strEq, strlenR_ok h1.2.2 (f1 s rfl), strlenR_ok h2.2.2 (f2 r rfl), h1.2.2.chars, h2.2.2.chars, bind,
        Except.bind]
      by_cases hsr : s = r <;> simp [hsr]
    case hash.hash f g =>
      simp only [hashOf]
      by_cases hfg : f = g <;> simp [hfg]
    all_goals simp
  · rw [if_neg (by rw [hm.num, hn.num]; omega)]
    refine ⟨false, rfl, by simp, ?_⟩
    rintro ⟨v, w, e1, e2, -⟩
    exfalso
    have := (List.getElem?_eq_some_iff.mp e1).1
    have := (List.getElem?_eq_some_iff.mp e2).1
    omega

/-- **C15/C14** `msg_setElementToFrom(n, j, m, i)` makes element `j` of `n` equal to element `i` of `m`, changes
nothing but that element and the declared size of `n`, and counts the text of a symbol. -/
theorem setElementToFrom_correct (fuel : Nat) (M : Mem) (m t n k : Nat) (vs : List Val) (hm : IsMsg M m t vs)
    (hk : numElements M n = k) (i j : Nat) (hi : i < vs.length) (hj : j < k)
    (hs : ∀ s, vs[i] = .sym s → s.length < fuel ∧ (rd M (m + 8 + 16 * i + 8) 8 + s.length < n ∨
      n + (8 + 16 * k) ≤ rd M (m + 8 + 16 * i + 8) 8)) :
    ∃ M', setElementToFrom fuel M n (j : Int) m (i : Int) = .ok M' ∧ ElemIs M' (n + 8 + 16 * j) vs[i] ∧
      (∀ x, x < n + 6 ∨ n + 8 ≤ x ∧ x < n + 8 + 16 * j ∨ n + 8 + 16 * j + 16 ≤ x → M' x = M x) ∧
      getSize M' n = (getSize M n + symBytes vs[i]) % 2^16 := by
  have hnum : i < numElements M m := by rw [hm.num]; exact hi
  have hel := hm.elem i hi
  have hgh := getHash_correct fuel M m t vs hm i hi (fun s h => (hs s h).1)
  unfold setElementToFrom
  rw [getType_ok hnum, hel.tag]
  simp only [bind, Except.bind, hgh, getFloat, elemAddr_ok hnum, getSymbol_ok hnum]
  generalize vs[i] = v at *
  cases v with
  | bang =>
    simp only [Msg.tag]
    exact put_spec (fuel := fuel) (p := .bang) (v := .bang) hk hj trivial
  | float f =>
    simp only [ElemIs] at hel
    simp only [Msg.tag, tFloat, tBang, hel.2, BitVec.ofNat_toNat, BitVec.setWidth_eq]
    exact put_spec (fuel := fuel) (p := .float f) (v := .float f) hk hj rfl
  | hash f =>
    simp only [Msg.tag, tFloat, tBang, tSymbol, tHash, hashOf]
    exact put_spec (fuel := fuel) (p := .hash f) (v := .hash f) hk hj rfl
  | sym s =>
    simp only [ElemIs] at hel
    simp only [Msg.tag, tFloat, tBang, tSymbol]
    have := rd_lt M (m + 8 + 16 * i + 8) 8
    exact put_spec (fuel := fuel) (p := .sym (rd M (m + 8 + 16 * i + 8) 8)) (v := .sym s) hk hj
      ⟨by omega, by omega, hel.2.2, (hs s rfl).2, (hs s rfl).1⟩

/-! ### concrete memory with two messages -/

/-- "hi" at address 1000 -/
def exMem : Mem := fun x => if x = 1000 then 104 else if x = 1001 then 105 else 0

/-- the message `[hi 1.5( at address 100, built through the API, and then copied to address 200 -/
def exRun : R Mem := do
  let M ← init exMem 100 2 7
  let M ← setSymbol 10 M 100 0 1000
  let M ← setFloat M 100 1 0x3FC00000#32
  copyToBuffer 10 M 100 200 43

example : (match exRun with
    | .ok M => getTimestamp M 200 == 7 && numElements M 200 == 2 && getSize M 200 == 43 && getSize M 100 == 43 &&
        rd M 216 8 == 240 && chars M 240 3 == [104, 105, 0] && rd M 232 4 == 0x3FC00000 &&
        needed [.sym [104, 105], .float 0x3FC00000#32] == 43 &&
        (hasFormat M 200 [chS, chF]).toOption == some true && (equalsElement 10 M 100 0 200 0).toOption == some true
    | .error _ => false) = true := by
  decide +kernel

/-- a memory that satisfies the hypotheses of the copy theorem, with a symbol -/
def exMem2 : Mem := fun x =>
  if x = 100 then 7 else if x = 104 then 1 else if x = 106 then 27 else if x = 108 then 2
  else if x = 116 then 0xE8 else if x = 117 then 3 else exMem x

example : Src 10 exMem2 100 200 64 7 [.sym [104, 105]] := by
  refine ⟨⟨by decide, by decide, ?_⟩, by decide, by decide, ?_⟩
  · intro i h
    have : i = 0 := by simp at h; omega
    subst this
    simp only [ElemIs, List.getElem_cons_zero, IsStr]
    decide
  · intro i h s hs
    have : i = 0 := by simp at h; omega
    subst this
    simp at hs
    subst hs
    decide

/-- the hypotheses of the theorems about building a message are satisfiable -/
example : PutIs 10 exMem 100 (100 + (8 + 16 * 2)) (.sym 1000) (.sym [104, 105]) ∧
    after 2 [(1, .float 0, .float 0), (0, .sym 1000, .sym [104, 105])] = [some (.sym [104, 105]), some (.float 0)] := by
  simp only [PutIs, IsStr]
  decide

end Verif.Msg
