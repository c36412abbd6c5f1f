import Verif.Props.TableAccess
/-! C49: signal-rate playback (`tabplay~`, `delread~`) and recording (`tabwrite~`, `delwrite~`). -/
namespace Verif.Tab
open Verif.Msg (R Err assert)

variable {α : Type} [Zero α]

/-! ## Playback -/

/-- tables and a `__tabread_stoppable~f` object -/
structure PWorld (α : Type) where
  ts : List (Table α)
  o : STabread

inductive PEv (α : Type)
  | msg (letIn : Nat) (m : Msg)
  | process
  | resize (t : Nat) (A : Alloc α) (n : Nat)
  | poke (t : Nat) (buf : List α)

/-- one event: a message, one vector of audio, or a change of a table by something else -/
def pevent (k other : Nat) (W : PWorld α) : PEv α → R (PWorld α)
  | .msg l m => do
    let o ← sTabreadMsg k other W.ts W.o l m
    .ok { W with o := o }
  | .process => do
    let (o, _, _) ← sTabreadStoppable k W.ts W.o
    .ok { W with o := o }
  | .resize t A n =>
    match W.ts[t]? with
    | none => .ok W
    | some T => do
      let T' ← resize k A T n
      .ok { W with ts := W.ts.set t T' }
  | .poke t buf =>
    match W.ts[t]? with
    | none => .ok W
    | some T => .ok { W with ts := W.ts.set t { T with buf := if buf.length = T.buf.length then buf else T.buf } }

/-- `set`-messages name existing tables, lengths are not astronomical -/
def PEvOk (k : Nat) (W : PWorld α) : PEv α → Prop
  | .msg _ (.table t) => ∃ i, t = some i ∧ i < W.ts.length
  | .resize _ _ n => n + 2 * 2 ^ k < 2 ^ 30
  | _ => True

/-- start: tables made by `hTable_init`, the object as `sTabread_init` leaves it (with aligned loads, as the generator
emits it, SignalTabread.py:45-50) -/
inductive PReach (k other : Nat) : PWorld α → Prop
  | init {ts : List (Table α)} {t : Nat} {T : Table α} : (∀ T ∈ ts, Made k false T) → ts[t]? = some T →
      PReach k other ⟨ts, sTabreadInit T t true⟩
  | step {W W' : PWorld α} {e : PEv α} :
      PReach k other W → PEvOk k W e → pevent k other W e = .ok W' → PReach k other W'

structure PInv (k : Nat) (W : PWorld α) : Prop where
  made : ∀ T ∈ W.ts, Made k false T
  tab : ∃ t, W.o.table = some t ∧ t < W.ts.length
  ali : W.o.aligned = true
  mul : W.o.head % 2 ^ k = 0

omit [Zero α] in
theorem deref_some {ts : List (Table α)} {t : Nat} (h : t < ts.length) : deref ts (some t) = .ok ts[t] := by
  simp [deref, List.getElem?_eq_getElem h]

theorem sTabreadMsg_spec {k other : Nat} (hk : k ≤ 28) {ts : List (Table α)} {o : STabread} {l : Nat} {m : Msg}
    (htab : ∃ t, o.table = some t ∧ t < ts.length) (ha : o.aligned = true) (hmul : o.head % 2 ^ k = 0)
    (hm : ∀ t, m = .table t → ∃ i, t = some i ∧ i < ts.length) :
    ∃ o', sTabreadMsg k other ts o l m = .ok o' ∧ (∃ t, o'.table = some t ∧ t < ts.length) ∧ o'.aligned = true ∧
      o'.head % 2 ^ k = 0 := by
  obtain ⟨t, ht, hlt⟩ := htab
  obtain ⟨ot, oh, ol, oa, op⟩ := o
  simp only at ht ha hmul
  subst ht ha
  unfold sTabreadMsg
  match l with
  | 0 =>
    simp only [deref_some hlt, bind, Except.bind]
    rw [if_neg (by simp)]
    cases m with
    | bang => exact ⟨_, rfl, ⟨t, rfl, hlt⟩, rfl, Nat.zero_mod _⟩
    | float f =>
      refine ⟨_, rfl, ⟨t, rfl, hlt⟩, rfl, ?_⟩
      simp only [if_true]
      refine (alignDown_spec k _ (by omega) ?_).2.2
      split
      · omega
      · exact Flt.toU32_lt _ _
    | stop => exact ⟨_, rfl, ⟨t, rfl, hlt⟩, rfl, Nat.zero_mod _⟩
    | clear => exact ⟨_, rfl, ⟨t, rfl, hlt⟩, rfl, hmul⟩
    | table _ => exact ⟨_, rfl, ⟨t, rfl, hlt⟩, rfl, hmul⟩
    | other => exact ⟨_, rfl, ⟨t, rfl, hlt⟩, rfl, hmul⟩
  | 1 =>
    cases m with
    | table t' =>
      obtain ⟨i, rfl, hi⟩ := hm t' rfl
      simp only [deref_some hi, bind, Except.bind]
      exact ⟨_, rfl, ⟨i, rfl, hi⟩, rfl, Nat.zero_mod _⟩
    | _ => exact ⟨_, rfl, ⟨t, rfl, hlt⟩, rfl, hmul⟩
  | 2 => cases m <;> exact ⟨_, rfl, ⟨t, rfl, hlt⟩, rfl, hmul⟩
  | n + 3 => exact ⟨_, rfl, ⟨t, rfl, hlt⟩, rfl, hmul⟩

theorem mod_pow32 {k x : Nat} (hk : k ≤ 32) (h : x % 2 ^ k = 0) : x % 2 ^ 32 % 2 ^ k = 0 := by
  rw [Nat.mod_mod_of_dvd _ (Nat.pow_dvd_pow 2 hk), h]

theorem stoppable_spec {k : Nat} (hk : k ≤ 28) {ts : List (Table α)} {o : STabread} (hmade : ∀ T ∈ ts, Made k false T)
    (htab : ∃ t, o.table = some t ∧ t < ts.length) (hmul : o.head % 2 ^ k = 0) :
    ∃ o' v b, sTabreadStoppable k ts o = .ok (o', v, b) ∧ o'.table = o.table ∧ o'.aligned = o.aligned ∧
      o'.head % 2 ^ k = 0 ∧ v.length = 2 ^ k := by
  obtain ⟨t, ht, hlt⟩ := htab
  obtain ⟨ot, oh, ol, oa, op⟩ := o
  simp only at ht hmul
  subst ht
  have h0 : 0 < 2 ^ k := Nat.two_pow_pos k
  obtain ⟨hok, hfull⟩ := (hmade _ (List.getElem_mem hlt)).ok hk
  replace hfull := hfull rfl
  simp only [sTabreadStoppable, deref_some hlt, bind, Except.bind]
  generalize hT : ts[t] = T at *
  by_cases h1 : oh ≥ T.allocated
  · simp only [h1, if_true, Bool.not_false]
    exact ⟨_, _, _, rfl, rfl, rfl, hmul, by simp⟩
  · simp only [h1, if_false]
    have hfit : oh + 2 ^ k ≤ T.buf.length := by
      rw [hfull.full]
      refine mult_lt h0 hmul ?_ (by omega)
      rw [hok.alloc, Nat.add_mod_right, hok.align]
    split
    · exact ⟨_, _, _, rfl, rfl, rfl, hmul, by simp⟩
    · split
      · simp only [loadN, if_pos hfit]
        refine ⟨_, _, _, rfl, rfl, rfl, mod_pow32 (by omega) ?_, ?_⟩
        · rw [Nat.add_mod_right, hmul]
        · simp; omega
      · exact ⟨_, _, _, rfl, rfl, rfl, hmul, by simp⟩

/-- every event succeeds and keeps the invariant -/
theorem pevent_ok {k other : Nat} (hk : k ≤ 28) {W : PWorld α} (h : PInv k W) {e : PEv α} (he : PEvOk k W e) :
    ∃ W', pevent k other W e = .ok W' ∧ PInv k W' := by
  obtain ⟨a, b, c, d⟩ := h
  cases e with
  | msg l m =>
    obtain ⟨o', e1, e2, e3, e4⟩ := sTabreadMsg_spec (other := other) (l := l) (m := m) hk b c d (fun t ht => by subst ht; exact he)
    exact ⟨⟨W.ts, o'⟩, by simp only [pevent, e1, bind, Except.bind], a, e2, e3, e4⟩
  | process =>
    obtain ⟨o', v, x, e1, e2, e3, e4, -⟩ := stoppable_spec hk a b d
    exact ⟨⟨W.ts, o'⟩, by simp only [pevent, e1, bind, Except.bind], a, by simp only [e2]; exact b, by simp only [e3]; exact c, e4⟩
  | resize t A n =>
    simp only [pevent]
    split
    · exact ⟨_, rfl, a, b, c, d⟩
    · rename_i T hT
      obtain ⟨T', e1, -⟩ := resize_spec hk A ((made_get a hT).ok hk).1 he
      simp only [e1, bind, Except.bind]
      exact ⟨_, rfl, made_set a (.resize (made_get a hT) he e1), by simpa using b, c, d⟩
  | poke t buf =>
    simp only [pevent]
    split
    · exact ⟨_, rfl, a, b, c, d⟩
    · rename_i T hT
      exact ⟨_, rfl, made_set a (.write (h := T.head) (made_get a hT) (by split <;> simp_all)), by simpa using b, c, d⟩

/-- **C49**, playback (partial: tables without initial data, `set` only to existing tables).  After any history of
messages with any contents, audio vectors, and resizes and rewrites of tables, whatever happens next does not
access memory outside the tables and hits no assertion. -/
theorem playback_in_bounds_partial {k other : Nat} (hk : k ≤ 28) {W : PWorld α} (h : PReach k other W) (e : PEv α)
    (he : PEvOk k W e) : ∃ W', pevent k other W e = .ok W' := by
  have hinv : PInv k W := by
    clear he
    induction h with
    | init hm ht =>
      obtain ⟨hlt, -⟩ := List.getElem?_eq_some_iff.1 ht
      exact ⟨hm, ⟨_, rfl, hlt⟩, rfl, Nat.zero_mod _⟩
    | step _ hok hs ih =>
      obtain ⟨W', e1, e2⟩ := pevent_ok (other := other) hk ih hok
      rw [hs] at e1; cases e1
      exact e2
  obtain ⟨W', e1, -⟩ := pevent_ok (other := other) hk hinv he
  exact ⟨W', e1⟩

/-- `n` vectors of playback without any message in between: outputs (with the "finished" bang) -/
def playN (k : Nat) (ts : List (Table α)) : Nat → STabread → R (STabread × List (List α × Bool))
  | 0, o => .ok (o, [])
  | n + 1, o => do
    let (o, v, b) ← sTabreadStoppable k ts o
    let (o, rest) ← playN k ts n o
    .ok (o, (v, b) :: rest)

/-- the vectors of a list, `n` of them -/
def chunks (N : Nat) : Nat → List α → List (List α)
  | 0, _ => []
  | n + 1, l => l.take N :: chunks N n (l.drop N)

theorem chunks_flatten (N n : Nat) (l : List α) : (chunks N n l).flatten = l.take (N * n) := by
  induction n generalizing l with
  | zero => simp [chunks]
  | succ n ih =>
    simp only [chunks, List.flatten_cons, ih]
    rw [← List.take_add, Nat.mul_succ, Nat.add_comm]

theorem stoppable_play {k : Nat} {ts : List (Table α)} {t : Nat} {T : Table α} (hT : ts[t]? = some T) {h l : Nat} {a : Bool}
    (h1 : h < T.allocated) (h2 : h < l) (h3 : h + 2 ^ k ≤ T.buf.length) (h4 : h + 2 ^ k < 2 ^ 32) :
    sTabreadStoppable k ts ⟨some t, h, l, a, true⟩ =
      .ok (⟨some t, h + 2 ^ k, l, a, true⟩, (T.buf.drop h).take (2 ^ k), false) := by
  have hn : ¬ (h ≥ T.allocated) := by omega
  simp only [sTabreadStoppable, deref, hT, bind, Except.bind, hn, if_false, Bool.not_true, Bool.false_eq_true]
  rw [if_pos h2]
  simp only [loadN, if_pos h3, Nat.mod_eq_of_lt h4]

theorem stoppable_end {k : Nat} {ts : List (Table α)} {t : Nat} {T : Table α} (hT : ts[t]? = some T) {h l : Nat} {a : Bool}
    (h1 : h < T.allocated) (h2 : l ≤ h) :
    sTabreadStoppable k ts ⟨some t, h, l, a, true⟩ = .ok (⟨some t, h, l, a, false⟩, List.replicate (2 ^ k) 0, true) := by
  have hn : ¬ (h ≥ T.allocated) := by omega
  simp only [sTabreadStoppable, deref, hT, bind, Except.bind, hn, if_false, Bool.not_true, Bool.false_eq_true]
  rw [if_neg (by omega)]

theorem stoppable_silent {k : Nat} {ts : List (Table α)} {t : Nat} {T : Table α} (hT : ts[t]? = some T) {h l : Nat} {a : Bool}
    : sTabreadStoppable k ts ⟨some t, h, l, a, false⟩ = .ok (⟨some t, h, l, a, false⟩, List.replicate (2 ^ k) 0, false) := by
  simp only [sTabreadStoppable, deref, hT, bind, Except.bind]
  split <;> rfl

theorem playN_go {k : Nat} {ts : List (Table α)} {t : Nat} {T : Table α} (hT : ts[t]? = some T)
    (hlen : T.buf.length = T.allocated) (hall : T.size < T.allocated) (hsm : T.allocated < 2 ^ 30) (n h : Nat) (a : Bool)
    (hn : h + 2 ^ k * n ≤ T.size) :
    playN k ts n ⟨some t, h, T.size, a, true⟩ = .ok (⟨some t, h + 2 ^ k * n, T.size, a, true⟩,
      (chunks (2 ^ k) n (T.buf.drop h)).map fun v => (v, false)) := by
  have h0 : 0 < 2 ^ k := Nat.two_pow_pos k
  induction n generalizing h with
  | zero => simp [playN, chunks]
  | succ n ih =>
    rw [Nat.mul_succ] at hn ⊢
    simp only [playN, stoppable_play hT (show h < T.allocated by omega) (show h < T.size by omega) (show h + 2 ^ k ≤ T.buf.length by omega) (by omega), bind,
      Except.bind]
    rw [ih _ (by omega)]
    simp only [chunks, List.map_cons, List.drop_drop]
    rw [show h + 2 ^ k + 2 ^ k * n = h + (2 ^ k * n + 2 ^ k) by omega]

theorem playN_silent {k : Nat} {ts : List (Table α)} {t : Nat} {T : Table α} (hT : ts[t]? = some T) {h l : Nat} {a : Bool}
    (n : Nat) : playN k ts n ⟨some t, h, l, a, false⟩ =
      .ok (⟨some t, h, l, a, false⟩, List.replicate n (List.replicate (2 ^ k) 0, false)) := by
  induction n with
  | zero => rfl
  | succ n ih => simp only [playN, stoppable_silent hT, ih, bind, Except.bind]; rfl

theorem playN_add {k : Nat} {ts : List (Table α)} (a b : Nat) (x y : STabread) (l : List (List α × Bool))
    (h : playN k ts a x = .ok (y, l)) : playN k ts (a + b) x = (playN k ts b y).map fun r => (r.1, l ++ r.2) := by
  induction a generalizing x l with
  | zero => simp only [playN] at h; cases h; rw [Nat.zero_add]; cases playN k ts b y <;> simp [Except.map]
  | succ a ih =>
    rw [show a + 1 + b = (a + b) + 1 by omega]
    simp only [playN, bind, Except.bind] at h ⊢
    split at h
    · cases h
    · rename_i r hr
      split at h
      · cases h
      · rename_i r2 hr2
        cases h
        rw [ih _ _ hr2]
        cases playN k ts b r2.1 <;> simp [Except.map]

/-- **C49**, playback: a bang plays the table from its first to its last usable sample, vector by vector, then sends
exactly one "finished" bang and is silent for ever (as long as no message arrives). -/
theorem playback_plays_table {k other : Nat} (hk : k ≤ 28) {ts : List (Table α)} (hm : ∀ T ∈ ts, Made k false T) {t : Nat}
    {T : Table α} (hT : ts[t]? = some T) (o : STabread) (ho : o.table = some t) (extra : Nat) :
    ∃ o1 o2, sTabreadMsg k other ts o 0 .bang = .ok o1 ∧
      playN k ts (T.size / 2 ^ k + 1 + extra) o1 = .ok (o2,
        (chunks (2 ^ k) (T.size / 2 ^ k) T.buf).map (fun v => (v, false)) ++
        [(List.replicate (2 ^ k) 0, true)] ++ List.replicate extra (List.replicate (2 ^ k) 0, false)) ∧
      (chunks (2 ^ k) (T.size / 2 ^ k) T.buf).flatten = T.buf.take T.size := by
  have h0 : 0 < 2 ^ k := Nat.two_pow_pos k
  obtain ⟨hok, hfull⟩ := (made_get hm hT).ok hk
  replace hfull := hfull rfl
  have hal := hok.alloc
  have hsm := hok.small
  have hq : 2 ^ k * (T.size / 2 ^ k) = T.size := Nat.mul_div_cancel' (Nat.dvd_of_mod_eq_zero hok.align)
  obtain ⟨ot, oh, ol, oa, op⟩ := o
  simp only at ho
  subst ho
  refine ⟨⟨some t, 0, T.size, oa, true⟩, ⟨some t, T.size, T.size, oa, false⟩, ?_, ?_, ?_⟩
  · simp only [sTabreadMsg, deref, hT, bind, Except.bind]
    rw [if_neg (by simp)]
  · have hgo := playN_go (k := k) hT hfull.full (by omega) (by omega) (T.size / 2 ^ k) 0 oa (by omega)
    rw [Nat.zero_add, hq] at hgo
    rw [Nat.add_assoc, playN_add _ _ _ _ _ hgo, Nat.add_comm 1 extra]
    simp only [playN, stoppable_end hT (show T.size < T.allocated by omega) (Nat.le_refl _), playN_silent hT, bind, Except.bind,
      Except.map, List.drop_zero]
    simp
  · rw [chunks_flatten, hq]

/-- finding F24: a `set` message naming a table that does not exist is a null pointer access -/
theorem playback_unknown_table_faults (k other : Nat) (ts : List (Table α)) (o : STabread) :
    sTabreadMsg k other ts o 1 (.table none) = .error .ub := rfl

/-- finding F8 for playback: with a table that has initial data, playing from an index near the end with an explicit
end position reads outside the buffer -/
theorem playback_data_table_overreads {k : Nat} (hk : k ≤ 28) (junk : Nat → α) (data : List α)
    (hn : data.length + 2 * 2 ^ k < 2 ^ 30) (other : Nat) :
    ∃ T o1 o2, initWithData k junk data = .ok T ∧
      sTabreadMsg k other [T] (sTabreadInit T 0 true) 0 (.float (.fin (T.size : Rat))) = .ok o1 ∧
      sTabreadMsg k other [T] o1 2 (.float (.fin 1)) = .ok o2 ∧
      sTabreadStoppable k [T] o2 = .error .ub := by
  have h0 : 0 < 2 ^ k := Nat.two_pow_pos k
  obtain ⟨u1, u2, u3⟩ := up_spec k data.length (by omega) (by omega)
  obtain ⟨T, e, h1, h2, h3, h4⟩ := initWithData_spec hk junk data hn
  have hl : T.buf.length = T.size := by rw [h4, h3]; simp; omega
  have ha := h1.alloc
  have hm := h1.small
  have hcast : ¬ ((T.size : Rat) < 0) := by
    rw [Rat.not_lt]
    exact_mod_cast Nat.zero_le T.size
  have hu : (Flt.fin (T.size : Rat)).abs.toU32 other = T.size := by
    simp only [Flt.abs, if_neg hcast]
    exact Flt.toU32_nat other T.size (by omega)
  have hu1 : (Flt.fin 1).abs.toU32 other = 1 := by
    have : (Flt.fin 1).abs = .fin ((1 : Nat) : Rat) := by decide
    rw [this]
    exact Flt.toU32_nat other 1 (by decide)
  have hd : alignDown k T.size = T.size := by
    obtain ⟨d1, d2, d3⟩ := alignDown_spec k T.size (by omega) (by omega)
    by_cases hlt : alignDown k T.size < T.size
    · have := mult_lt h0 d3 h1.align hlt; omega
    · omega
  refine ⟨T, { table := some 0, head := T.size, last := T.size, aligned := true, playing := true },
    { table := some 0, head := T.size, last := T.size + 1, aligned := true, playing := true }, e, ?_, ?_, ?_⟩
  · simp only [sTabreadMsg, sTabreadInit, deref, List.getElem?_cons_zero, bind, Except.bind]
    rw [if_neg (by simp)]
    simp only [hu, Flt.ltZero, hcast, decide_false, Bool.false_eq_true, if_false, if_true, hd]
  · simp only [sTabreadMsg, hu1]
    rw [Nat.mod_eq_of_lt (by omega)]
  · have hn : ¬ (T.size ≥ T.allocated) := by omega
    simp only [sTabreadStoppable, deref, List.getElem?_cons_zero, bind, Except.bind, hn, Bool.not_true, Bool.false_eq_true, if_false]
    rw [if_pos (by omega)]
    simp only [loadN]
    rw [if_neg (by omega)]

/-- **C49**, looping reads (`__tabread~f`, partial): outside the wrap of the 32-bit head, a read is inside the buffer
or stopped by the assertion -/
theorem looping_read_in_bounds_partial {k : Nat} (hk : k ≤ 28) {ts : List (Table α)} (hm : ∀ T ∈ ts, Made k false T)
    (o : STabread) (t : Nat) (T : Table α) (ho : o.table = some t) (hT : ts[t]? = some T) (hw : o.head + 2 ^ k < 2 ^ 32) :
    sTabreadF k ts o = (if o.head + 2 ^ k ≤ T.size + 2 ^ k then
      .ok ({ o with head := o.head + 2 ^ k }, (T.buf.drop o.head).take (2 ^ k)) else .error .assertFail) := by
  obtain ⟨hok, hfull⟩ := (made_get hm hT).ok hk
  replace hfull := (hfull rfl).full
  have hal := hok.alloc
  have hlt : t < ts.length := (List.getElem?_eq_some_iff.1 hT).1
  have hget : ts[t] = T := by rw [List.getElem?_eq_getElem hlt] at hT; exact Option.some.inj hT
  simp only [sTabreadF, ho, deref_some hlt, hget, bind, Except.bind, assert]
  rw [Nat.mod_eq_of_lt hw]
  by_cases h : o.head + 2 ^ k ≤ T.size + 2 ^ k
  · rw [if_pos h, if_pos (by simp; omega)]
    simp only [loadN]
    rw [if_pos (by omega)]
  · rw [if_neg h, if_neg (by simp; omega)]

/-- finding F25: the assertion itself wraps: with the head one vector below `2^32` (the start position
`-(size + HV_N_SIMD)` gives this) the check passes and the read is far outside -/
theorem looping_read_wraps {k : Nat} (hk : k ≤ 28) {ts : List (Table α)} (hm : ∀ T ∈ ts, Made k false T)
    (o : STabread) (t : Nat) (T : Table α) (ho : o.table = some t) (hT : ts[t]? = some T) (hw : o.head = 2 ^ 32 - 2 ^ k) :
    sTabreadF k ts o = .error .ub := by
  obtain ⟨hok, hfull⟩ := (made_get hm hT).ok hk
  replace hfull := (hfull rfl).full
  have hal := hok.alloc
  have hsm := hok.small
  have hp : 2 ^ k ≤ 2 ^ 28 := Nat.pow_le_pow_right (by omega) hk
  have hlt : t < ts.length := (List.getElem?_eq_some_iff.1 hT).1
  have hget : ts[t] = T := by rw [List.getElem?_eq_getElem hlt] at hT; exact Option.some.inj hT
  simp only [sTabreadF, ho, deref_some hlt, hget, bind, Except.bind, assert]
  rw [show (o.head + 2 ^ k) % 2 ^ 32 = 0 by omega, if_pos (by simp)]
  simp only [loadN]
  rw [if_neg (by omega)]

omit [Zero α] in
theorem mapM_assert {is : List Int} {n : Nat} :
    (is.mapM fun (i : Int) => assert (i ≥ 0 ∧ i < (n : Int))) =
      (if ∀ i ∈ is, i ≥ 0 ∧ i < (n : Int) then .ok (is.map fun _ => ()) else .error .assertFail) := by
  induction is with
  | nil => rfl
  | cons i is ih =>
    rw [List.mapM_cons, ih]
    by_cases h : i ≥ 0 ∧ i < (n : Int)
    · by_cases h2 : ∀ i ∈ is, i ≥ 0 ∧ i < (n : Int)
      · rw [if_pos h2, if_pos (by simpa [h] using h2)]
        simp [assert, h, bind, Except.bind, pure, Except.pure]
      · rw [if_neg h2, if_neg (by intro hh; exact h2 fun i hi => hh i (List.mem_cons_of_mem _ hi))]
        simp [assert, h, bind, Except.bind]
    · rw [if_neg (c := ∀ j ∈ i :: is, j ≥ 0 ∧ j < (n : Int)) (fun hh => h (hh i List.mem_cons_self))]
      simp [assert, h, bind, Except.bind]

/-- **C49**, random access (`__tabread~if`): on tables without initial data every index is inside the buffer or
stopped by the assertion, and an in-range index reads exactly that sample -/
theorem random_read_in_bounds {k : Nat} (hk : k ≤ 28) {ts : List (Table α)} (hm : ∀ T ∈ ts, Made k false T)
    (o : STabread) (t : Nat) (T : Table α) (ho : o.table = some t) (hT : ts[t]? = some T) (is : List Int) :
    (sTabreadIf ts o is = .error .assertFail ∧ ∃ i ∈ is, ¬ (0 ≤ i ∧ i < (T.allocated : Int))) ∨
    ((∀ i ∈ is, 0 ≤ i ∧ i < (T.allocated : Int)) ∧ ∃ vs, sTabreadIf ts o is = .ok vs ∧
      vs.map some = is.map fun i => T.buf[i.toNat]?) := by
  obtain ⟨hok, hfull⟩ := (made_get hm hT).ok hk
  replace hfull := (hfull rfl).full
  have hlt : t < ts.length := (List.getElem?_eq_some_iff.1 hT).1
  have hget : ts[t] = T := by rw [List.getElem?_eq_getElem hlt] at hT; exact Option.some.inj hT
  simp only [sTabreadIf, ho, deref_some hlt, hget, bind, Except.bind, mapM_assert]
  by_cases h : ∀ i ∈ is, i ≥ 0 ∧ i < (T.allocated : Int)
  · right
    refine ⟨h, ?_⟩
    rw [if_pos h]
    simp only
    clear ho
    induction is with
    | nil => exact ⟨[], rfl, rfl⟩
    | cons i is ih =>
      obtain ⟨vs, e1, e2⟩ := ih fun i hi => h i (List.mem_cons_of_mem _ hi)
      obtain ⟨a, b⟩ := h i List.mem_cons_self
      have hi : i.toNat < T.buf.length := by omega
      rw [List.mapM_cons, e1]
      simp only [readAt, List.getElem?_eq_getElem hi, bind, Except.bind, pure, Except.pure]
      exact ⟨_, rfl, by simp [e2, List.getElem?_eq_getElem hi]⟩
  · left
    rw [if_neg h]
    refine ⟨rfl, ?_⟩
    simpa using h

/-! ## Recording -/

/-- `bs.length` vectors recorded without any message in between -/
def recN (ts : List (Table α)) : List (List α) → STabwrite → R (STabwrite × List (Table α))
  | [], o => .ok (o, ts)
  | b :: bs, o => do
    let (o, ts') ← sTabwriteStoppable ts o b
    recN ts' bs o

omit [Zero α] in
theorem recN_go {N : Nat} (bs : List (List α)) (hb : ∀ b ∈ bs, b.length = N) (ts : List (Table α)) (t : Nat) (T : Table α)
    (hT : ts[t]? = some T) (hsm : T.buf.length < 2 ^ 30) (o : STabwrite) (ho : o.table = some t)
    (hfit : o.head + N * bs.length ≤ T.buf.length) :
    recN ts bs o = .ok ({ o with head := o.head + N * bs.length },
      ts.set t { T with buf := T.buf.take o.head ++ bs.flatten ++ T.buf.drop (o.head + N * bs.length) }) := by
  induction bs generalizing ts T o with
  | nil =>
    simp only [recN, List.length_nil, Nat.mul_zero, Nat.add_zero, List.flatten_nil, List.append_nil, List.take_append_drop]
    obtain ⟨hlt, rfl⟩ := List.getElem?_eq_some_iff.1 hT
    rw [List.set_getElem_self]
  | cons b bs ih =>
    have hbl := hb b List.mem_cons_self
    have hlt : t < ts.length := (List.getElem?_eq_some_iff.1 hT).1
    have hget : ts[t] = T := by rw [List.getElem?_eq_getElem hlt] at hT; exact Option.some.inj hT
    simp only [List.length_cons, Nat.mul_succ] at hfit ⊢
    simp only [recN, sTabwriteStoppable, bind, Except.bind]
    rw [if_neg (by unfold stopped; omega)]
    simp only [ho, deref_some hlt, hget, storeN]
    rw [if_pos (by omega)]
    simp only [hbl, Option.getD_some]
    rw [Nat.mod_eq_of_lt (by omega)]
    have hset : (ts.set t { T with buf := T.buf.take o.head ++ b ++ T.buf.drop (o.head + N) })[t]? =
        some { T with buf := T.buf.take o.head ++ b ++ T.buf.drop (o.head + N) } := by simp [hlt]
    rw [ih (fun b hb' => hb b (List.mem_cons_of_mem _ hb')) _ _ hset (by simp; omega) _ rfl (by simp; omega)]
    refine congrArg Except.ok (Prod.ext ?_ ?_)
    · simp only [STabwrite.mk.injEq, true_and]
      omega
    · simp only [List.set_set]
      congr 2
      simp only [List.flatten_cons]
      have e1 : (T.buf.take o.head ++ b ++ T.buf.drop (o.head + N)).take (o.head + N) = T.buf.take o.head ++ b := by
        rw [List.take_append_of_le_length (by simp; omega), List.take_of_length_le (by simp; omega)]
      have e2 : (T.buf.take o.head ++ b ++ T.buf.drop (o.head + N)).drop (o.head + N + N * bs.length) =
          T.buf.drop (o.head + (N * bs.length + N)) := by
        rw [List.drop_append, List.drop_eq_nil_of_le (by simp; omega), List.nil_append, List.drop_drop]
        congr 1
        simp
        omega
      rw [e1, e2]
      simp

/-- **C49**, recording (partial): as long as it fits, `tabwrite~` records exactly its input, from the start position. -/
theorem recording_records_partial {k : Nat} (hk : k ≤ 28) {ts : List (Table α)} (hm : ∀ T ∈ ts, Made k false T) (t : Nat)
    (T : Table α) (hT : ts[t]? = some T) (o : STabwrite) (ho : o.table = some t) (bs : List (List α))
    (hb : ∀ b ∈ bs, b.length = 2 ^ k) (hfit : o.head + 2 ^ k * bs.length ≤ T.size + 2 ^ k) :
    ∃ o' T', recN ts bs o = .ok (o', ts.set t T') ∧ T'.buf.length = T.buf.length ∧
      (∀ i, i < bs.flatten.length → T'.buf[o.head + i]? = bs.flatten[i]?) ∧
      (∀ i, i < o.head ∨ o.head + bs.flatten.length ≤ i → T'.buf[i]? = T.buf[i]?) := by
  obtain ⟨hok, hfull⟩ := (made_get hm hT).ok hk
  replace hfull := (hfull rfl).full
  have hal := hok.alloc
  have hsm := hok.small
  have hfl : bs.flatten.length = 2 ^ k * bs.length := by
    clear hfit
    induction bs with
    | nil => rfl
    | cons b bs ih =>
      rw [List.flatten_cons, List.length_append, ih (fun b h => hb b (List.mem_cons_of_mem _ h)),
        hb b List.mem_cons_self, List.length_cons, Nat.mul_succ, Nat.add_comm]
  refine ⟨_, _, recN_go bs hb ts t T hT (by omega) o ho (by omega), ?_, fun i hi => ?_, fun i hi => ?_⟩
  · simp [hfl]; omega
  · simp only
    rw [List.append_assoc, List.getElem?_append_right (by simp; omega),
      List.getElem?_append_left (by simp only [List.length_take]; omega)]
    congr 1
    simp only [List.length_take]
    omega
  · simp only
    rcases hi with hi | hi
    · rw [List.append_assoc, List.getElem?_append_left (by simp; omega), List.getElem?_take_of_lt hi]
    · rw [List.getElem?_append_right (by simp only [List.length_append, List.length_take]; omega), List.getElem?_drop]
      congr 1
      simp only [List.length_append, List.length_take]
      omega

/-- the source says "TODO: this is not stopping!" (HvSignalTabwrite.h:77).  Finding F26: recording without a message
in between always runs over the end of the table, whatever the table and the start position. -/
theorem recording_overruns {k : Nat} (hk : k ≤ 28) {ts : List (Table α)} (hm : ∀ T ∈ ts, Made k false T) (t : Nat)
    (T : Table α) (hT : ts[t]? = some T) (o : STabwrite) (ho : o.table = some t) (hst : o.head ≤ T.size)
    (v : List α) (hv : v.length = 2 ^ k) :
    recN ts (List.replicate ((T.buf.length - o.head) / 2 ^ k + 1) v) o = .error .ub := by
  obtain ⟨hok, hfull⟩ := (made_get hm hT).ok hk
  replace hfull := (hfull rfl).full
  have hal := hok.alloc
  have hsm := hok.small
  have h0 : 0 < 2 ^ k := Nat.two_pow_pos k
  have hlt : t < ts.length := (List.getElem?_eq_some_iff.1 hT).1
  have hdm := Nat.div_add_mod (T.buf.length - o.head) (2 ^ k)
  have hml := Nat.mod_lt (T.buf.length - o.head) h0
  generalize hq : (T.buf.length - o.head) / 2 ^ k = q at *
  have comp : ∀ (a b : List (List α)) (ts : List (Table α)) (o o' : STabwrite) (ts' : List (Table α)),
      recN ts a o = .ok (o', ts') → recN ts (a ++ b) o = recN ts' b o' := by
    intro a b
    induction a with
    | nil => intro ts o o' ts' h; cases h; rfl
    | cons x a ih =>
      intro ts o o' ts' h
      simp only [recN, List.cons_append, bind, Except.bind] at h ⊢
      split at h
      · cases h
      · exact ih _ _ _ _ h
  rw [List.replicate_succ', comp _ _ _ _ _ _ (recN_go (List.replicate q v) (fun b hb => by rw [(List.mem_replicate.1 hb).2, hv]) ts t T hT
    (by omega) o ho (by simp; omega))]
  simp only [List.length_replicate, recN, sTabwriteStoppable, bind, Except.bind]
  rw [if_neg (by unfold stopped; omega)]
  simp only [ho, deref, List.getElem?_set_self hlt, storeN]
  rw [if_neg]
  simp [hv, Nat.mul_comm q]
  omega

/-- the hypotheses are satisfiable: a table of 10 samples, four lanes; the fifth vector is written outside the 16
allocated samples -/
example (junk : Nat → Int) : ∃ T, init 2 junk 10 = .ok T ∧
    recN [T] (List.replicate 5 [1, 2, 3, 4]) ⟨some 0, 0⟩ = .error .ub := by
  obtain ⟨T, e, h1, h2, h3, h4⟩ := init_spec (k := 2) (by decide) junk (n := 10) (by decide)
  refine ⟨T, e, ?_⟩
  have hl : T.buf.length = 16 := by rw [h4, List.length_replicate]; decide
  have := recording_overruns (k := 2) (by decide) (ts := [T])
    (fun T' hT' => by simp at hT'; subst hT'; exact .init (by decide) e) 0 T rfl ⟨some 0, 0⟩ rfl (Nat.zero_le _) [1, 2, 3, 4] rfl
  simpa [hl] using this

/-- the hypotheses of the playback theorems are satisfiable -/
example (junk : Nat → Int) : ∃ W : PWorld Int, PReach 2 0 W ∧ W.ts.length = 1 := by
  obtain ⟨T, e, -⟩ := init_spec (k := 2) (by decide) junk (n := 10) (by decide)
  exact ⟨⟨[T], sTabreadInit T 0 true⟩, .init (fun T' hT' => by simp at hT'; subst hT'; exact .init (by decide) e) rfl, rfl⟩

end Verif.Tab
