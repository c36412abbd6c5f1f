import Verif.Print
import Verif.Props.HostMsg
/-!
# C84: what `[print]` shows
-/
namespace Verif.Print
open Mem Msg

/-- **specification** the text of one element -/
def text (g : BitVec 32 → List Byte) : Val → List Byte
  | .bang => bangText
  | .float f => g f
  | .sym s => s
  | .hash h => hexText h

/-- **specification** the elements separated by single spaces -/
def line (g : BitVec 32 → List Byte) : List Val → List Byte
  | [] => []
  | [v] => text g v
  | v :: w :: vs => text g v ++ 32 :: line g (w :: vs)

theorem isStr_of {M : Mem} : ∀ {s : List Byte} {p : Nat}, (∀ k < s.length, M (p + k) = s.getD k 0) →
    M (p + s.length) = 0 → 0 ∉ s → IsStr M p s := by
  intro s
  induction s with
  | nil => intro p _ h _; simpa [IsStr] using h
  | cons c s ih =>
    intro p h h0 hn
    simp only [IsStr]
    refine ⟨by have := h 0 (by simp); simpa using this, fun hc => hn (hc ▸ List.mem_cons_self), ih (fun k hk => ?_) ?_ ?_⟩
    · have := h (k + 1) (by simpa using hk)
      rw [show p + 1 + k = p + (k + 1) by omega, this]
      simp
    · rw [show p + 1 + s.length = p + (c :: s).length by simp; omega]
      exact h0
    · intro hm
      exact hn (List.mem_cons_of_mem c hm)

theorem isStr_get {M : Mem} : ∀ {s : List Byte} {p : Nat}, IsStr M p s →
    (∀ k < s.length, M (p + k) = s.getD k 0) ∧ M (p + s.length) = 0 ∧ 0 ∉ s := by
  intro s
  induction s with
  | nil => intro p h; simpa [IsStr] using h
  | cons c s ih =>
    intro p h
    simp only [IsStr] at h
    obtain ⟨h1, h2, h3⟩ := ih h.2.2
    refine ⟨fun k hk => ?_, ?_, ?_⟩
    · rcases k with _ | k
      · simpa using h.1
      · have := h1 k (by simpa using hk)
        rw [show p + (k + 1) = p + 1 + k by omega, this]
        simp
    · rw [show p + (c :: s).length = p + 1 + s.length by simp; omega]
      exact h2
    · simp only [List.mem_cons, not_or]
      exact ⟨fun hc => h.2.1 hc.symm, h3⟩

theorem elemText_ok {fuel : Nat} {g : BitVec 32 → List Byte} {M : Mem} {m t : Nat} {vs : List Val} (hm : IsMsg M m t vs)
    (hf : ∀ s, Val.sym s ∈ vs → s.length < fuel) {i : Nat} (hi : i < vs.length) :
    elemText fuel g M m i = .ok (text g vs[i]) := by
  have hnum : i < numElements M m := by rw [hm.num]; exact hi
  unfold elemText
  rw [getType_ok hnum, (hm.elem i hi).tag]
  simp only [bind, Except.bind]
  cases hv : vs[i] with
  | bang => rfl
  | float f =>
    rw [HostMsg.getFloat_ok hm hi hv]
    rfl
  | sym s =>
    have := HostMsg.gensym_ok (fuel := fuel) hm hi hv (hf s (hv ▸ List.getElem_mem hi))
    unfold HostMsg.gensym at this
    simp only [bind, Except.bind] at this
    rw [show Msg.tag (.sym s) = tSymbol from rfl, if_neg (by decide), if_neg (by decide), if_pos rfl]
    exact this
  | hash h =>
    rw [getHash_correct fuel M m t vs hm i hi (by rw [hv]; intro s hs; cases hs), hv]
    rfl

theorem lens_ok {fuel : Nat} {g : BitVec 32 → List Byte} {M : Mem} {m t : Nat} {vs : List Val} (hm : IsMsg M m t vs)
    (hf : ∀ s, Val.sym s ∈ vs → s.length < fuel) : ∀ k i, i + k = vs.length →
    lens fuel g M m i k = .ok ((vs.drop i).map fun v => (text g v).length + 1) := by
  intro k
  induction k with
  | zero => intro i hi; rw [List.drop_eq_nil_of_le (by omega)]; rfl
  | succ k ih =>
    intro i hi
    have hlt : i < vs.length := by omega
    rw [List.drop_eq_getElem_cons hlt]
    simp only [lens, bind, Except.bind, elemText_ok hm hf hlt, ih (i + 1) (by omega), List.map_cons]

def flat (g : BitVec 32 → List Byte) (vs : List Val) : List Byte := vs.flatMap fun v => text g v ++ [32]

theorem flat_line (g : BitVec 32 → List Byte) : ∀ vs : List Val, vs ≠ [] → flat g vs = line g vs ++ [32]
  | [], h => absurd rfl h
  | [v], _ => by simp [flat, line]
  | v :: w :: vs, _ => by
    have := flat_line g (w :: vs) (by simp)
    simp only [flat, List.flatMap_cons] at this ⊢
    rw [this]
    simp [line]

theorem flat_length (g : BitVec 32 → List Byte) (vs : List Val) :
    (flat g vs).length = (vs.map fun v => (text g v).length + 1).sum := by
  induction vs with
  | nil => rfl
  | cons v vs ih => simp only [flat, List.flatMap_cons, List.length_append, List.length_cons, List.length_nil, List.map_cons, List.sum_cons] at *; omega

theorem snprintf_all {M : Mem} {dst : Nat} {t : List Byte} :
    (∀ k < t.length, snprintf M dst (t.length + 1) t (dst + k) = t.getD k 0) ∧
    (∀ x, x < dst ∨ dst + t.length < x → snprintf M dst (t.length + 1) t x = M x) := by
  constructor
  · intro k hk
    unfold snprintf
    rw [if_pos (by omega)]
    congr 1
    omega
  · intro x hx
    unfold snprintf
    rw [if_neg (by omega), if_neg (by omega)]

theorem texts_ok {fuel : Nat} {g : BitVec 32 → List Byte} {m t buf size : Nat} {vs : List Val}
    (hf : ∀ s, Val.sym s ∈ vs → s.length < fuel) : ∀ k i pos (M : Mem), i + k = vs.length → IsMsg M m t vs →
    HostMsg.Apart M m vs buf size → pos + (flat g (vs.drop i)).length ≤ size →
    ∃ M', texts fuel g m buf i ((vs.drop i).map fun v => (text g v).length + 1) pos M = .ok M' ∧
      (∀ x, x < buf + pos ∨ buf + pos + (flat g (vs.drop i)).length ≤ x → M' x = M x) ∧
      ∀ j < (flat g (vs.drop i)).length, M' (buf + pos + j) = (flat g (vs.drop i)).getD j 0 := by
  intro k
  induction k with
  | zero =>
    intro i pos M hi _ _ _
    rw [List.drop_eq_nil_of_le (by omega)]
    exact ⟨M, rfl, fun x _ => rfl, by simp [flat]⟩
  | succ k ih =>
    intro i pos M hi hm ha hsz
    have hlt : i < vs.length := by omega
    rw [List.drop_eq_getElem_cons hlt] at hsz ⊢
    have hfl : flat g (vs[i] :: vs.drop (i + 1)) = (text g vs[i] ++ [32]) ++ flat g (vs.drop (i + 1)) := by
      simp only [flat, List.flatMap_cons]
    rw [hfl] at hsz ⊢
    simp only [List.length_append, List.length_cons, List.length_nil] at hsz ⊢
    simp only [List.map_cons, texts, bind, Except.bind, elemText_ok hm hf hlt]
    generalize htx : text g vs[i] = tx at *
    obtain ⟨s1, s2⟩ := snprintf_all (M := M) (dst := buf + pos) (t := tx)
    generalize hM1 : wr (snprintf M (buf + pos) (tx.length + 1) tx) (buf + (pos + (tx.length + 1)) - 1) 1 32 = M1
    have hout : ∀ x, x < buf + pos ∨ buf + pos + tx.length < x → M1 x = M x := fun x hx => by
      rw [← hM1, wr_out (by omega), s2 x hx]
    have hin : ∀ j < tx.length, M1 (buf + pos + j) = tx.getD j 0 := fun j hj => by
      rw [← hM1, wr_out (by omega), s1 j hj]
    have hsp : M1 (buf + pos + tx.length) = 32 := by
      rw [← hM1, show buf + (pos + (tx.length + 1)) - 1 = buf + pos + tx.length by omega]
      simp [wr]
    have hm1 : IsMsg M1 m t vs := HostMsg.isMsg_congr hm
      (fun x g1 g2 => (hout x (by have := ha.1; omega)).symm)
      (fun j hj s he x g1 g2 => (hout x (by have := ha.2 j hj s he; omega)).symm)
    have ha1 : HostMsg.Apart M1 m vs buf size := by
      refine ⟨ha.1, fun j hj s he => ?_⟩
      rw [rd_congr (N := M) fun x g1 g2 => hout x (by have := ha.1; omega)]
      exact ha.2 j hj s he
    obtain ⟨M', e1, e2, e3⟩ := ih (i + 1) (pos + (tx.length + 1)) M1 (by omega) hm1 ha1 (by omega)
    refine ⟨M', e1, fun x hx => ?_, fun j hj => ?_⟩
    · rw [e2 x (by omega), hout x (by omega)]
    · by_cases h1 : j < tx.length + 1
      · rw [e2 _ (by omega)]
        rw [List.getD_eq_getElem?_getD, List.getElem?_append_left (by simpa using h1)]
        by_cases h2 : j < tx.length
        · rw [hin j h2, List.getElem?_append_left h2, ← List.getD_eq_getElem?_getD]
        · have hj' : j = tx.length := by omega
          rw [hj', hsp]
          simp
      · have := e3 (j - (tx.length + 1)) (by omega)
        rw [show buf + (pos + (tx.length + 1)) + (j - (tx.length + 1)) = buf + pos + j by omega] at this
        rw [this, List.getD_eq_getElem?_getD, List.getD_eq_getElem?_getD, List.getElem?_append_right (by simp; omega)]
        simp

theorem hexDigit_ne : ∀ d : Fin 16, hexDigit d.1 ≠ 0 := by decide

theorem hexDigits_ne : ∀ k n, 0 ∉ hexDigits k n := by
  intro k
  induction k with
  | zero => intro n; simp [hexDigits]
  | succ k ih =>
    intro n
    simp only [hexDigits]
    split
    · rename_i h
      simpa using (hexDigit_ne ⟨n, h⟩).symm
    · have := hexDigit_ne ⟨n % 16, by omega⟩
      simp only [List.mem_append, List.mem_singleton, not_or]
      exact ⟨ih _, fun h => this h.symm⟩

theorem text_ne {g : BitVec 32 → List Byte} (hg : ∀ f, 0 ∉ g f) {M : Mem} {m t : Nat} {vs : List Val} (hm : IsMsg M m t vs) :
    ∀ v ∈ vs, 0 ∉ text g v := by
  intro v hv
  cases v with
  | bang => simp only [text]; decide
  | float f => exact hg f
  | hash h =>
    simp only [text, hexText, List.mem_cons, not_or]
    exact ⟨by decide, by decide, hexDigits_ne _ _⟩
  | sym s =>
    obtain ⟨i, hi, he⟩ := List.mem_iff_getElem.1 hv
    have := hm.elem i hi
    rw [he] at this
    exact (isStr_get this.2.2).2.2

theorem line_ne {g : BitVec 32 → List Byte} : ∀ vs : List Val, (∀ v ∈ vs, 0 ∉ text g v) → 0 ∉ line g vs
  | [], _ => by simp [line]
  | [v], h => h v (by simp)
  | v :: w :: vs, h => by
    have := line_ne (w :: vs) fun u hu => h u (List.mem_cons_of_mem v hu)
    simp only [line, List.mem_append, List.mem_cons, not_or]
    exact ⟨h v (by simp), by decide, this⟩

/-- **C84 (`msg_toString`)** for every message the text made is its elements separated by single spaces, it is
terminated, exactly as many bytes are asked for as are needed, and no byte outside them is written. -/
theorem to_string (fuel : Nat) (g : BitVec 32 → List Byte) (hg : ∀ f, 0 ∉ g f) (M : Mem) (m t buf : Nat) (vs : List Val)
    (hm : IsMsg M m t vs) (hpos : 0 < vs.length) (hf : ∀ s, Val.sym s ∈ vs → s.length < fuel)
    (ha : HostMsg.Apart M m vs buf ((line g vs).length + 1)) :
    ∃ M', toString fuel g M m buf = .ok (M', (line g vs).length + 1) ∧ IsStr M' buf (line g vs) ∧
      ∀ x, x < buf ∨ buf + ((line g vs).length + 1) ≤ x → M' x = M x := by
  have hl := lens_ok (g := g) hm hf vs.length 0 (by omega)
  rw [List.drop_zero] at hl
  have hne : vs ≠ [] := List.length_pos_iff.1 hpos
  have hfl := flat_line g vs hne
  have hlen : (flat g vs).length = (line g vs).length + 1 := by rw [hfl]; simp
  have hsum : (vs.map fun v => (text g v).length + 1).sum = (line g vs).length + 1 := by rw [← flat_length, hlen]
  obtain ⟨M1, e1, e2, e3⟩ := texts_ok (g := g) (size := (line g vs).length + 1) hf vs.length 0 0 M (by omega) hm ha
    (by rw [List.drop_zero, hlen]; omega)
  rw [List.drop_zero] at e1 e2 e3
  rw [Nat.add_zero] at e2 e3
  rw [hlen] at e2 e3
  refine ⟨wr M1 (buf + (line g vs).length) 1 0, ?_, isStr_of (fun k hk => ?_) ?_ ?_, fun x hx => ?_⟩
  · unfold toString
    rw [assert_true (by simpa [hm.num] using hpos), hm.num, hl]
    simp only [bind, Except.bind, hsum]
    rw [assert_true (by simp), e1]
    rfl
  · rw [wr_out (by omega), e3 k (by omega), hfl, List.getD_eq_getElem?_getD, List.getElem?_append_left hk,
      ← List.getD_eq_getElem?_getD]
  · simp [wr]
  · exact line_ne vs (text_ne hg hm)
  · rw [wr_out (by omega), e2 x hx]

/-! ## The hooks -/

theorem strnlen_ok {M : Mem} : ∀ {s : List Byte} {p : Nat}, IsStr M p s → ∀ k, strnlen M p k = min k s.length := by
  intro s
  induction s with
  | nil =>
    intro p h k
    simp only [IsStr] at h
    cases k <;> simp [strnlen, h]
  | cons c s ih =>
    intro p h k
    simp only [IsStr] at h
    cases k with
    | zero => rfl
    | succ k =>
      simp only [strnlen]
      rw [if_neg (by rw [h.1]; exact h.2.1), ih h.2.2 k]
      simp

theorem strncpyN_in {M : Mem} {dst src n : Nat} {s : List Byte} (hs : IsStr M src s) {j : Nat} (hj : j < n) :
    strncpyN M dst src n (dst + j) = s.getD j 0 := by
  unfold strncpyN
  rw [if_pos (by omega), strnlen_ok hs, Nat.add_sub_cancel_left]
  by_cases h : j < s.length
  · rw [if_pos (by omega), (isStr_get hs).1 j h]
  · rw [if_neg (by omega)]
    simp [List.getElem?_eq_none (by omega : s.length ≤ j)]

theorem strncpyN_out {M : Mem} {dst src n x : Nat} (hx : x < dst ∨ dst + n ≤ x) : strncpyN M dst src n x = M x := by
  unfold strncpyN
  rw [if_neg (by omega)]

/-- the label and the message text are outside the 64 bytes of the hook's buffer -/
structure Hook (M : Mem) (buf label msg : Nat) (l s : List Byte) : Prop where
  is_label : IsStr M label l
  is_msg : IsStr M msg s
  label_apart : label + l.length < buf ∨ buf + 64 ≤ label
  msg_apart : msg + s.length < buf ∨ buf + 64 ≤ msg

/-- **C84 (OWL, Daisy)** exactly the 64 bytes of the buffer are written: at most 48 bytes of the label, a space, and as
much of the text as fits, filled up with zeros. -/
theorem owl_bytes (M : Mem) (buf label msg : Nat) (l s : List Byte) (h : Hook M buf label msg l s) :
    (∀ j < 64, owlPrint M buf label msg (buf + j) = (l.take 48 ++ 32 :: s.take (63 - min 48 l.length)).getD j 0) ∧
    ∀ x, x < buf ∨ buf + 64 ≤ x → owlPrint M buf label msg x = M x := by
  unfold owlPrint
  have hk := strnlen_ok h.is_label 48
  have hla := h.label_apart
  have hma := h.msg_apart
  simp only [hk]
  generalize hn : min 48 l.length = n
  have hn48 : n ≤ 48 ∧ n ≤ l.length := by omega
  have hl1 : IsStr (strncpyN M buf label n) label l :=
    h.is_label.congr fun x g1 g2 => (strncpyN_out (by omega)).symm
  rw [strnlen_ok hl1, Nat.min_eq_left hn48.2]
  generalize hM2 : wr (wr (strncpyN M buf label n) (buf + n) 1 32) (buf + n + 1) 1 0 = M2
  have hout : ∀ x, x < buf ∨ buf + 64 ≤ x → M2 x = M x := fun x hx => by
    rw [← hM2, wr_out (by omega), wr_out (by omega), strncpyN_out (by omega)]
  have hs2 : IsStr M2 msg s := h.is_msg.congr fun x g1 g2 => (hout x (by omega)).symm
  refine ⟨fun j hj => ?_, fun x hx => by rw [strncpyN_out (by omega), hout x hx]⟩
  have htl : (l.take 48).length = n := by simp; omega
  rw [List.getD_eq_getElem?_getD]
  by_cases h1 : j < n
  · rw [strncpyN_out (by omega), ← hM2, wr_out (by omega), wr_out (by omega), strncpyN_in h.is_label h1,
      List.getElem?_append_left (by omega), List.getElem?_take, if_pos (by omega), List.getD_eq_getElem?_getD]
  · rw [List.getElem?_append_right (by omega), htl]
    by_cases h2 : j = n
    · subst h2
      rw [strncpyN_out (by omega), ← hM2, wr_out (by omega)]
      simp [wr]
    · obtain ⟨k, rfl⟩ : ∃ k, j = n + 1 + k := ⟨j - n - 1, by omega⟩
      rw [show buf + (n + 1 + k) = buf + n + 1 + k by omega, strncpyN_in hs2 (by omega),
        show n + 1 + k - n = k + 1 by omega, List.getElem?_cons_succ, List.getElem?_take, if_pos (by omega),
        List.getD_eq_getElem?_getD]

/-- **C84 (OWL, Daisy)** a text that fits is shown in full, after the (first 48 bytes of the) label. -/
theorem owl_print (M : Mem) (buf label msg : Nat) (l s : List Byte) (h : Hook M buf label msg l s)
    (hfit : s.length < 63 - min 48 l.length) : IsStr (owlPrint M buf label msg) buf (l.take 48 ++ 32 :: s) := by
  obtain ⟨h1, -⟩ := owl_bytes M buf label msg l s h
  rw [List.take_of_length_le (by omega : s.length ≤ 63 - min 48 l.length)] at h1
  have hlen : (l.take 48 ++ 32 :: s).length = min 48 l.length + 1 + s.length := by simp; omega
  refine isStr_of (fun k hk => h1 k (by omega)) ?_ ?_
  · rw [h1 _ (by omega)]
    simp
  · simp only [List.mem_append, List.mem_cons, not_or]
    exact ⟨fun hm => (isStr_get h.is_label).2.2 (List.mem_of_mem_take hm), by decide, (isStr_get h.is_msg).2.2⟩

/-- **C84 (counterexample, OWL, Daisy)** a longer text fills the buffer without a terminator: whatever is shown goes on
behind the 64 bytes. -/
theorem owl_unterminated (M : Mem) (buf label msg : Nat) (l s : List Byte) (h : Hook M buf label msg l s)
    (hlong : 63 - min 48 l.length ≤ s.length) (r : List Byte) (hr : IsStr (owlPrint M buf label msg) buf r) :
    64 ≤ r.length := by
  obtain ⟨h1, -⟩ := owl_bytes M buf label msg l s h
  apply Decidable.by_contra
  intro hlt
  obtain ⟨-, h0, -⟩ := isStr_get hr
  rw [h1 _ (by omega)] at h0
  have hmem : ∀ x ∈ l.take 48 ++ 32 :: s.take (63 - min 48 l.length), x ≠ 0 := by
    intro x hx hx0
    subst hx0
    simp only [List.mem_append, List.mem_cons] at hx
    rcases hx with hx | hx | hx
    · exact (isStr_get h.is_label).2.2 (List.mem_of_mem_take hx)
    · exact absurd hx (by decide)
    · exact (isStr_get h.is_msg).2.2 (List.mem_of_mem_take hx)
  have hlen : (l.take 48 ++ 32 :: s.take (63 - min 48 l.length)).length = 64 := by
    simp
    omega
  rw [List.getD_eq_getElem?_getD, List.getElem?_eq_getElem (by omega)] at h0
  exact hmem _ (List.getElem_mem _) h0

/-- **C84 (counterexample, DPF)** the label is never shown: a text that fits overwrites it. -/
theorem dpf_print (M : Mem) (buf label msg : Nat) (l s : List Byte) (h : Hook M buf label msg l s)
    (hfit : s.length < 63 - min 48 l.length) : IsStr (dpfPrint M buf label msg) buf s := by
  unfold dpfPrint
  have hk := strnlen_ok h.is_label 48
  have hla := h.label_apart
  have hma := h.msg_apart
  simp only [hk]
  generalize hn : min 48 l.length = n at *
  have hs2 : IsStr (wr (wr (strncpyN M buf label n) buf 1 32) (buf + 1) 1 0) msg s := h.is_msg.congr fun x g1 g2 => by
    rw [wr_out (by omega), wr_out (by omega), strncpyN_out (by omega)]
  refine isStr_of (fun k hk => strncpyN_in hs2 (by omega)) ?_ (isStr_get h.is_msg).2.2
  rw [strncpyN_in hs2 hfit]
  simp

/-- **C84 (counterexample, DPF)** only `63 - len` bytes of the text are copied; behind them, without a terminator when the
text is as long as that, is the rest of the label and then whatever was on the stack. -/
theorem dpf_junk (M : Mem) (buf label msg : Nat) (l s : List Byte) (h : Hook M buf label msg l s) :
    (∀ j < 63 - min 48 l.length, dpfPrint M buf label msg (buf + j) = s.getD j 0) ∧
    ∀ j, 63 - min 48 l.length ≤ j → j < 64 → dpfPrint M buf label msg (buf + j) =
      if j < min 48 l.length then l.getD j 0 else M (buf + j) := by
  unfold dpfPrint
  have hk := strnlen_ok h.is_label 48
  have hla := h.label_apart
  have hma := h.msg_apart
  simp only [hk]
  generalize hn : min 48 l.length = n at *
  have hs2 : IsStr (wr (wr (strncpyN M buf label n) buf 1 32) (buf + 1) 1 0) msg s := h.is_msg.congr fun x g1 g2 => by
    rw [wr_out (by omega), wr_out (by omega), strncpyN_out (by omega)]
  refine ⟨fun j hj => strncpyN_in hs2 hj, fun j h1 h2 => ?_⟩
  rw [strncpyN_out (by omega), wr_out (by omega), wr_out (by omega)]
  split
  · exact strncpyN_in h.is_label ‹_›
  · exact strncpyN_out (by omega)

/-! ## Examples -/

/-- `[print x]` of the message `1 hi` (with `%g` of 1 being `"1"`) -/
theorem print_example (M : Mem) (m t buf : Nat) (g : BitVec 32 → List Byte) (hg : ∀ f, 0 ∉ g f) (h1 : g 0x3F800000#32 = [49])
    (hm : IsMsg M m t [.float 0x3F800000#32, .sym [104, 105], .bang, .hash 0xBEEF#32])
    (ha : HostMsg.Apart M m [.float 0x3F800000#32, .sym [104, 105], .bang, .hash 0xBEEF#32] buf 17) :
    ∃ M', toString 10 g M m buf = .ok (M', 17) ∧
      IsStr M' buf [49, 32, 104, 105, 32, 98, 97, 110, 103, 32, 48, 120, 66, 69, 69, 70] := by
  have hl : line g [.float 0x3F800000#32, .sym [104, 105], .bang, .hash 0xBEEF#32] =
      [49, 32, 104, 105, 32, 98, 97, 110, 103, 32, 48, 120, 66, 69, 69, 70] := by
    simp only [line, text, h1]
    decide
  obtain ⟨M', e1, e2, -⟩ := to_string 10 g hg M m t buf _ hm (by simp) (by simp) (by rw [hl]; exact ha)
  rw [hl] at e1 e2
  exact ⟨M', e1, e2⟩

/-- label `x` at 1000, text `hi` at 2000, buffer at 3000 -/
theorem hook_example : Hook (fun x => if x = 1000 then 120 else if x = 2000 then 104 else if x = 2001 then 105 else 0)
    3000 1000 2000 [120] [104, 105] :=
  ⟨by simp [IsStr], by simp [IsStr], by simp, by simp⟩

end Verif.Print
