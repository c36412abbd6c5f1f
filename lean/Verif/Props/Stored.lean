import Verif.Stored
import Verif.Props.Lists
/-! C23: objects that hold a value hold the last one; `[if]` sends each message to exactly one side; casts convert and
keep the time.  C50: the unary operators. -/
namespace Verif.Stored
open Verif.Msg (R Err Val)
open Verif.Lists (Msg Out hashElem latest keep runObj runObj_snoc latest_snoc elem_ok hashElem_eq)

/-! ### specification -/

/-- what a message stores in `[float]`, `[symbol]`, `[var]`: its first element, from either inlet (symbols by hash) -/
def stores (e : Nat × Msg) : Option Val := if e.1 ≤ 1 then e.2.es[0]?.bind keep else none

/-- the two zeros of single precision -/
def IsZero (f : BitVec 32) : Prop := f = 0x00000000#32 ∨ f = 0x80000000#32
instance (f : BitVec 32) : Decidable (IsZero f) := by unfold IsZero; infer_instance

/-- a message that sets the condition of `[if]`: a float on the right inlet; true when it is not zero -/
def setsCondition (e : Nat × Msg) : Option Bool :=
  if e.1 = 1 then e.2.es[0]?.bind fun v => match v with
    | Val.float f => some (decide (¬ IsZero f))
    | _ => none
  else none

/-- the positive single precision numbers, by their bit patterns -/
def IsPositive (f : BitVec 32) : Prop := 1 ≤ f.toNat ∧ f.toNat ≤ 0x7F800000

/-! ### stored values -/

theorem varMsg_spec (v : Val) (hv : (∃ f, v = .float f) ∨ ∃ h, v = .hash h) (e : Nat × Msg) (he : e.2.es ≠ []) :
    ∃ v', varMsg v e.1 e.2 = .ok (v',
        if e.1 = 0 then (if e.2.es[0]? = some .bang then [(0, ⟨e.2.ts, [v']⟩)] else [(0, e.2)]) else []) ∧
      v' = (stores e).getD v ∧ ((∃ f, v' = .float f) ∨ ∃ h, v' = .hash h) := by
  obtain ⟨j, m⟩ := e
  simp only at he ⊢
  have hpos : 0 < m.es.length := List.length_pos_iff.mpr he
  rcases j with _ | _ | j
  · simp only [varMsg, elem_ok hpos, bind, Except.bind, stores, List.getElem?_eq_getElem hpos, Option.bind_some]
    cases hw : m.es[0] with
    | bang =>
      rcases hv with ⟨f, rfl⟩ | ⟨h, rfl⟩
      · exact ⟨.float f, by simp, by simp [keep], .inl ⟨f, rfl⟩⟩
      · exact ⟨.hash h, by simp, by simp [keep], .inr ⟨h, rfl⟩⟩
    | float f => exact ⟨.float f, by simp, by simp [keep], .inl ⟨f, rfl⟩⟩
    | sym s => exact ⟨.hash (hashElem (.sym s)), by simp, by simp [keep, hashElem_eq], .inr ⟨_, rfl⟩⟩
    | hash h => exact ⟨.hash h, by simp, by simp [keep], .inr ⟨h, rfl⟩⟩
  · simp only [varMsg, elem_ok hpos, bind, Except.bind, stores, List.getElem?_eq_getElem hpos, Option.bind_some]
    cases hw : m.es[0] with
    | bang => exact ⟨v, by simp, by simp [keep], hv⟩
    | float f => exact ⟨.float f, by simp, by simp [keep], .inl ⟨f, rfl⟩⟩
    | sym s => exact ⟨.hash (hashElem (.sym s)), by simp, by simp [keep, hashElem_eq], .inr ⟨_, rfl⟩⟩
    | hash h => exact ⟨.hash h, by simp, by simp [keep], .inr ⟨h, rfl⟩⟩
  · exact ⟨v, by simp [varMsg], by simp [stores], hv⟩

/-- **C23** (stored values): for every history of non-empty messages, nothing faults; a bang on the left inlet is
answered, at its time, with the most recent value stored from either inlet (the initial one if there is none); any other
message on the left inlet is passed on unchanged; other inlets send nothing. -/
theorem stored_value_is_latest (v0 : Val) (hv : (∃ f, v0 = .float f) ∨ ∃ h, v0 = .hash h) (h : List (Nat × Msg))
    (hh : ∀ e ∈ h, e.2.es ≠ []) :
    ∃ v os, runObj varMsg v0 h = .ok (v, os) ∧ v = latest stores v0 h ∧ os.length = h.length ∧
      ∀ p (hp : p < h.length), os[p]? = some (
        if h[p].1 = 0 then
          (if h[p].2.es[0]? = some .bang then [(0, ⟨h[p].2.ts, [latest stores v0 (h.take p)]⟩)] else [(0, h[p].2)])
        else []) := by
  have key : ∃ v os, runObj varMsg v0 h = .ok (v, os) ∧ v = latest stores v0 h ∧
      ((∃ f, v = .float f) ∨ ∃ h, v = .hash h) ∧ os.length = h.length ∧
      ∀ p (hp : p < h.length), os[p]? = some (
        if h[p].1 = 0 then
          (if h[p].2.es[0]? = some .bang then [(0, ⟨h[p].2.ts, [latest stores v0 (h.take p)]⟩)] else [(0, h[p].2)])
        else []) := by
    induction h using List.reverseRecOn with
    | nil => exact ⟨v0, [], rfl, rfl, hv, rfl, fun p hp => by simp at hp⟩
    | append_singleton h e ih =>
      obtain ⟨v, os, a1, a2, a3, a4, a5⟩ := ih fun e he => hh e (by simp [he])
      obtain ⟨v', b1, b2, b3⟩ := varMsg_spec v a3 e (hh e (by simp))
      refine ⟨v', _, by rw [runObj_snoc, a1]; simp only [bind, Except.bind]; rw [b1], ?_, b3, by simp [a4], ?_⟩
      · rw [b2, a2, latest_snoc]
      · intro p hp
        simp only [List.length_append, List.length_cons, List.length_nil] at hp
        by_cases hlt : p < h.length
        · rw [List.getElem?_append_left (by omega), List.getElem_append_left hlt,
            List.take_append_of_le_length (by omega)]
          exact a5 p hlt
        · have hpe : p = h.length := by omega
          subst hpe
          rw [List.getElem?_append_right (by omega), a4]
          simp only [Nat.sub_self, List.getElem?_cons_zero, List.getElem_append_right (Nat.le_refl _),
            List.getElem_cons_zero, List.take_left]
          congr 1
          by_cases h0 : e.1 = 0
          · rw [if_pos h0, if_pos h0]
            by_cases hb : e.2.es[0]? = some .bang
            · rw [if_pos hb, if_pos hb, b2, ← a2]
              simp [stores, hb, keep]
            · rw [if_neg hb, if_neg hb]
          · rw [if_neg h0, if_neg h0]
  obtain ⟨v, os, a1, a2, _, a4, a5⟩ := key
  exact ⟨v, os, a1, a2, a4, a5⟩

example : runObj varMsg (.float 1#32) [(0, ⟨1, [.bang]⟩), (1, ⟨2, [.float 5#32]⟩), (0, ⟨3, [.bang]⟩), (0, ⟨4, [.hash 6#32]⟩),
      (0, ⟨5, [.bang]⟩)] =
    .ok (.hash 6#32, [[(0, ⟨1, [.float 1#32]⟩)], [], [(0, ⟨3, [.float 5#32]⟩)], [(0, ⟨4, [.hash 6#32]⟩)],
      [(0, ⟨5, [.hash 6#32]⟩)]]) := by decide

/-! ### if -/

theorem shl_zero_iff (f : BitVec 32) : (f <<< 1 == 0#32) = decide (IsZero f) := by
  have h1 : (f <<< 1).toNat = (f.toNat * 2) % 2 ^ 32 := by
    rw [BitVec.toNat_shiftLeft, Nat.shiftLeft_eq]
  have hf := f.isLt
  rw [Bool.eq_iff_iff, beq_iff_eq, decide_eq_true_iff, ← BitVec.toNat_inj, h1]
  unfold IsZero
  rw [← BitVec.toNat_inj, ← BitVec.toNat_inj]
  simp only [BitVec.toNat_ofNat]
  omega

theorem nonzero_eq (f : BitVec 32) : nonzero f = decide (¬ IsZero f) := by
  unfold nonzero Msg.feq
  have h0 : Msg.isNaN 0#32 = false := by decide
  have hz : ((0#32 : BitVec 32) <<< 1 == 0#32) = true := by decide
  rw [h0, hz, shl_zero_iff]
  by_cases h : IsZero f
  · have : Msg.isNaN f = false := by rcases h with rfl | rfl <;> decide
    simp [h, this]
  · have : f ≠ 0#32 := fun hf => h (.inl hf)
    simp [h, this]

theorem ifMsg_spec (k : Bool) (e : Nat × Msg) :
    ifMsg k e.1 e.2 = .ok ((setsCondition e).getD k, if e.1 = 0 then [((if k then 1 else 0), e.2)] else []) := by
  obtain ⟨j, m⟩ := e
  rcases j with _ | _ | j
  · simp [ifMsg, setsCondition]
  · simp only [ifMsg, setsCondition, if_true, Lists.Msg.float?]
    cases h : m.es[0]? with
    | none => simp
    | some v => cases v <;> simp [nonzero_eq]
  · simp [ifMsg, setsCondition]

/-- **C23** (if): every message on the left inlet leaves, unchanged, from exactly one outlet: the right one when the most
recent condition (a float on the right inlet) was not zero, else the left one; setting the condition sends nothing. -/
theorem if_routes (k0 : Bool) (h : List (Nat × Msg)) :
    ∃ k os, runObj ifMsg k0 h = .ok (k, os) ∧ os.length = h.length ∧
      ∀ p (hp : p < h.length), os[p]? = some (
        if h[p].1 = 0 then [((if latest setsCondition k0 (h.take p) then 1 else 0), h[p].2)] else []) := by
  have key : ∃ k os, runObj ifMsg k0 h = .ok (k, os) ∧ k = latest setsCondition k0 h ∧ os.length = h.length ∧
      ∀ p (hp : p < h.length), os[p]? = some (
        if h[p].1 = 0 then [((if latest setsCondition k0 (h.take p) then 1 else 0), h[p].2)] else []) := by
    induction h using List.reverseRecOn with
    | nil => exact ⟨k0, [], rfl, rfl, rfl, fun p hp => by simp at hp⟩
    | append_singleton h e ih =>
      obtain ⟨k, os, a1, a2, a4, a5⟩ := ih
      refine ⟨_, _, by rw [runObj_snoc, a1]; simp only [bind, Except.bind]; rw [ifMsg_spec], ?_, by simp [a4], ?_⟩
      · rw [a2, latest_snoc]
      · intro p hp
        simp only [List.length_append, List.length_cons, List.length_nil] at hp
        by_cases hlt : p < h.length
        · rw [List.getElem?_append_left (by omega), List.getElem_append_left hlt,
            List.take_append_of_le_length (by omega)]
          exact a5 p hlt
        · have hpe : p = h.length := by omega
          subst hpe
          rw [List.getElem?_append_right (by omega), a4]
          simp [a2]
  obtain ⟨k, os, a1, _, a4, a5⟩ := key
  exact ⟨k, os, a1, a4, a5⟩

example : runObj ifMsg false [(0, ⟨1, [.bang]⟩), (1, ⟨2, [.float 5#32]⟩), (0, ⟨3, [.bang]⟩), (1, ⟨4, [.float 0x80000000#32]⟩),
      (0, ⟨5, [.hash 3#32]⟩)] =
    .ok (false, [[(0, ⟨1, [.bang]⟩)], [], [(1, ⟨3, [.bang]⟩)], [], [(0, ⟨5, [.hash 3#32]⟩)]]) := by decide

/-! ### casts -/

/-- **C23** (casts): a bang for anything; the first element when it is a float and otherwise nothing; and for symbols the
words `bang` and `float` for these types and the message itself for a symbol.  A message whose first element is a hashed
symbol is dropped by the symbol cast (finding F30). -/
theorem cast_converts (m : Msg) (v : Val) (rest : List Val) (hm : m.es = v :: rest) :
    castMsg .bang m = .ok [(0, ⟨m.ts, [.bang]⟩)] ∧
    castMsg .float m = .ok (match v with
      | .float f => [(0, ⟨m.ts, [.float f]⟩)]
      | _ => []) ∧
    castMsg .symbol m = .ok (match v with
      | .bang => [(0, ⟨m.ts, [.sym ("bang".toUTF8.toList.map fun b => b.toBitVec)]⟩)]
      | .float _ => [(0, ⟨m.ts, [.sym ("float".toUTF8.toList.map fun b => b.toBitVec)]⟩)]
      | .sym _ => [(0, m)]
      | .hash _ => []) := by
  have he : m.elem 0 = .ok v := by simp [Lists.Msg.elem, hm]
  have hb : "bang".toUTF8.toList.map (fun b => b.toBitVec) = [98#8, 97#8, 110#8, 103#8] := by decide +kernel
  have hf : "float".toUTF8.toList.map (fun b => b.toBitVec) = [102#8, 108#8, 111#8, 97#8, 116#8] := by decide +kernel
  refine ⟨rfl, ?_, ?_⟩
  · simp only [castMsg, Lists.Msg.float?, hm, List.getElem?_cons_zero]
    cases v <;> rfl
  · simp only [castMsg, he, bind, Except.bind, hb, hf]
    cases v <;> rfl

/-- **C23** (casts): whatever a cast sends has the time of the message, from its only outlet, at most once -/
theorem cast_keeps_time (c : Cast) (m : Msg) (os : List Out) (h : castMsg c m = .ok os) :
    os.length ≤ 1 ∧ ∀ o ∈ os, o.1 = 0 ∧ o.2.ts = m.ts := by
  have one : ∀ es, (⟨m.ts, es⟩ : Msg).ts = m.ts := fun _ => rfl
  cases c with
  | bang => simp only [castMsg, Except.ok.injEq] at h; subst h; simp
  | float =>
    simp only [castMsg] at h
    split at h <;> simp only [Except.ok.injEq] at h <;> subst h <;> simp
  | symbol =>
    simp only [castMsg, bind, Except.bind] at h
    cases he : m.elem 0 with
    | error e => rw [he] at h; cases h
    | ok v => rw [he] at h; cases v <;> simp only [Except.ok.injEq] at h <;> subst h <;> simp

/-- **C23 is weak for symbols** (finding F30): `[symbol]` and `[pack]` hold symbols by hash and send them as hashes, and
the symbol cast silently drops these: a symbol stored and recalled does not pass it. -/
theorem stored_symbol_lost_by_cast (t : Nat) (s : List Mem.Byte) (v0 : Val) :
    ∃ v m', runObj varMsg v0 [(1, ⟨t, [.sym s]⟩), (0, ⟨t, [.bang]⟩)] = .ok (v, [[], [(0, m')]]) ∧
      castMsg .symbol ⟨t, [.sym s]⟩ = .ok [(0, ⟨t, [.sym s]⟩)] ∧ castMsg .symbol m' = .ok [] :=
  ⟨_, _, rfl, rfl, rfl⟩

/-! ### unary operators -/

theorem isNaN_nat (f : BitVec 32) (hm : f.toNat < 2 ^ 31) : Msg.isNaN f = decide (0x7F800000 < f.toNat) := by
  unfold Msg.isNaN
  have h1 : (f &&& 0x7F800000#32).toNat = (f.toNat / 2 ^ 23 % 2 ^ 8) * 2 ^ 23 := by
    have : (f &&& 0x7F800000#32) = ((f >>> 23) &&& 0xFF#32) <<< 23 := by
      ext i hi
      have : ∀ j : Fin 32, (0x7F800000#32).getLsbD j = decide (23 ≤ j.val ∧ j.val < 31) := by decide
      have h2 : ∀ j : Fin 32, (0xFF#32).getLsbD j = decide (j.val < 8) := by decide
      simp only [← BitVec.getLsbD_eq_getElem, BitVec.getLsbD_and, BitVec.getLsbD_shiftLeft, BitVec.getLsbD_ushiftRight]
      rw [this ⟨i, hi⟩, h2 ⟨i - 23, by omega⟩]
      by_cases hi2 : i < 23
      · simp [hi2, show ¬ 23 ≤ i by omega]
      · have e : 23 + (i - 23) = i := by omega
        have e2 : (i - 23 < 8) = (i < 31) := by rw [eq_iff_iff]; omega
        simp [hi2, hi, show 23 ≤ i by omega, e, e2]
    rw [this, BitVec.toNat_shiftLeft, BitVec.toNat_and, BitVec.toNat_ushiftRight, Nat.shiftLeft_eq,
      Nat.shiftRight_eq_div_pow]
    have : (0xFF#32).toNat = 2 ^ 8 - 1 := by decide
    rw [this, Nat.and_two_pow_sub_one_eq_mod]
    omega
  have h2 : (f &&& 0x007FFFFF#32).toNat = f.toNat % 2 ^ 23 := by
    rw [BitVec.toNat_and]
    have : (0x007FFFFF#32).toNat = 2 ^ 23 - 1 := by decide
    rw [this, Nat.and_two_pow_sub_one_eq_mod]
  rw [Bool.eq_iff_iff, Bool.and_eq_true, beq_iff_eq, bne_iff_ne, decide_eq_true_iff, ne_eq, ← BitVec.toNat_inj,
    ← BitVec.toNat_inj, h1, h2]
  simp only [BitVec.toNat_ofNat]
  omega

theorem positive_iff (f : BitVec 32) : positive f = true ↔ IsPositive f := by
  unfold positive IsPositive
  have hf := f.isLt
  rw [Bool.and_eq_true, Bool.and_eq_true, bne_iff_ne, ne_eq, ← BitVec.toNat_inj]
  simp only [BitVec.toNat_ofNat, Bool.not_eq_true', BitVec.msb_eq_decide, decide_eq_false_iff_not, Nat.not_le]
  constructor
  · rintro ⟨⟨h1, h2⟩, h3⟩
    rw [isNaN_nat f (by omega)] at h1
    simp at h1
    omega
  · rintro ⟨h1, h2⟩
    refine ⟨⟨?_, by omega⟩, by omega⟩
    rw [isNaN_nat f (by omega)]
    simp; omega

/-- **C50**: a unary operator answers every message that starts with a float with exactly one float at the same time:
the library function of it, except that `sqrt` and the logarithms give 0 for every number that is not positive (NaN
included); any other message sends nothing. -/
theorem unop_answers (L : Lib) (op : Unop) (m : Msg) :
    (∀ f, m.es[0]? = some (.float f) → ∃ r, unopMsg L op m = [(0, ⟨m.ts, [.float r]⟩)] ∧
      (op ∉ [Unop.sqrt, .log, .log2, .log10] → r = L.f op f) ∧
      (op ∈ [Unop.sqrt, .log, .log2, .log10] → (IsPositive f → r = L.f op f) ∧ (¬ IsPositive f → r = 0#32))) ∧
    ((∀ f, m.es[0]? ≠ some (.float f)) → unopMsg L op m = []) := by
  constructor
  · intro f hf
    have : m.float? 0 = some f := (Lists.float?_eq m 0 f).mpr hf
    unfold unopMsg
    rw [this]
    refine ⟨_, rfl, ?_, ?_⟩
    · intro h
      cases op <;> simp at h ⊢
    · intro h
      rw [← positive_iff]
      cases op <;> simp at h ⊢ <;> constructor <;> intro hp <;> simp [hp]
  · intro h
    have : m.float? 0 = none := (Lists.float?_none m 0).mpr h
    unfold unopMsg
    rw [this]

example : IsPositive 0x3F800000#32 ∧ ¬ IsPositive 0x80000000#32 ∧ ¬ IsPositive 0xBF800000#32 ∧ ¬ IsPositive 0x7FC00000#32 ∧
    IsPositive 0x7F800000#32 := by unfold IsPositive; decide

end Verif.Stored
