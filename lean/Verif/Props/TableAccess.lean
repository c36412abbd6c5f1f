import Verif.Props.Table
/-!
C18: control-rate reads and writes; C49: signal-rate playback and recording.
-/
namespace Verif.Tab
open Verif.Msg (R Err assert)

variable {α : Type} [Zero α]

/-! ## C18 -/

/-- a patch with tables, a `[tabread]` and a `[tabwrite]` -/
structure World (α : Type) where
  ts : List (Table α)
  r : CTabread
  w : CTabwrite

/-- things that can happen: a message to the reader, a message to the writer, a table is resized, some other object
or the host changes the samples of a table (without reallocating it) -/
inductive Ev (α : Type)
  | read (letIn : Nat) (m : Msg)
  | write (letIn : Nat) (m : Msg)
  | resize (t : Nat) (A : Alloc α) (n : Nat)
  | poke (t : Nat) (buf : List α)

/-- one event; the output is the sample sent by the reader, if any.  Events naming a table that does not exist do
nothing (`poke`, `resize`) -/
def event (k other : Nat) (val : Flt → α) (W : World α) : Ev α → R (World α × Option α)
  | .read l m => do
    let (r, v) ← cTabread other W.ts W.r l m
    .ok ({ W with r := r }, v)
  | .write l m => do
    let (w, ts) ← cTabwrite other val W.ts W.w l m
    .ok ({ W with w := w, ts := ts }, none)
  | .resize t A n =>
    match W.ts[t]? with
    | none => .ok (W, none)
    | some T => do
      let T' ← resize k A T n
      .ok ({ W with ts := W.ts.set t T' }, none)
  | .poke t buf =>
    match W.ts[t]? with
    | none => .ok (W, none)
    | some T => .ok ({ W with ts := W.ts.set t { T with buf := if buf.length = T.buf.length then buf else T.buf } }, none)

/-- the events a program can cause: `hv_table_get` only gives existing tables, and lengths are not astronomical -/
def EvOk (k : Nat) (W : World α) : Ev α → Prop
  | .read _ (.table (some t)) => t < W.ts.length
  | .write _ (.table (some t)) => t < W.ts.length
  | .resize _ _ n => n + 2 * 2 ^ k < 2 ^ 30
  | _ => True

/-- the worlds reached from a start world by events that did not fault -/
inductive Reach (k other : Nat) (val : Flt → α) : World α → Prop
  | init {W : World α} : (∀ T ∈ W.ts, Made k true T) → (∀ t, W.r.table = some t → t < W.ts.length) →
      (∀ t, W.w.table = some t → t < W.ts.length) → Reach k other val W
  | step {W W' : World α} {e : Ev α} {v : Option α} :
      Reach k other val W → EvOk k W e → event k other val W e = .ok (W', v) → Reach k other val W'

theorem made_set {k : Nat} {d : Bool} {ts : List (Table α)} {t : Nat} {T' : Table α} (h : ∀ T ∈ ts, Made k d T)
    (hT : Made k d T') : ∀ T ∈ ts.set t T', Made k d T := by
  intro T hm
  rcases List.mem_or_eq_of_mem_set hm with h1 | h1
  · exact h T h1
  · exact h1 ▸ hT

theorem made_get {k : Nat} {d : Bool} {ts : List (Table α)} {t : Nat} {T : Table α} (h : ∀ T ∈ ts, Made k d T)
    (hT : ts[t]? = some T) : Made k d T := h T (List.mem_of_getElem? hT)

/-- invariant of reachable worlds -/
structure WInv (k : Nat) (W : World α) : Prop where
  made : ∀ T ∈ W.ts, Made k true T
  rok : ∀ t, W.r.table = some t → t < W.ts.length
  wok : ∀ t, W.w.table = some t → t < W.ts.length

theorem writeAt_ok {T T' : Table α} {i : Nat} {v : α} (h : writeAt T i v = .ok T') :
    i < T.buf.length ∧ T' = { T with buf := T.buf.set i v } := by
  unfold writeAt at h
  split at h
  · cases h; exact ⟨‹_›, rfl⟩
  · cases h

theorem cTabwrite_inv {k other : Nat} {val : Flt → α} {ts ts' : List (Table α)} {w w' : CTabwrite} {l : Nat} {m : Msg}
    (hm : ∀ T ∈ ts, Made k true T) (hw : ∀ t, w.table = some t → t < ts.length)
    (he : ∀ t, m = .table (some t) → t < ts.length)
    (h : cTabwrite other val ts w l m = .ok (w', ts')) :
    (∀ T ∈ ts', Made k true T) ∧ ts'.length = ts.length ∧ (∀ t, w'.table = some t → t < ts.length) := by
  unfold cTabwrite at h
  split at h
  · rename_i f
    split at h
    · rename_i t ht
      split at h
      · cases h
      · rename_i T hT
        simp only [bind, Except.bind] at h
        split at h
        · cases h
        · rename_i T' hT'
          cases h
          obtain ⟨-, rfl⟩ := writeAt_ok hT'
          exact ⟨made_set hm (.write (h := T.head) (made_get hm hT) (by simp)), by simp, hw⟩
    · cases h; exact ⟨hm, rfl, hw⟩
  · split at h
    · split at h
      · cases h
      · split at h
        · split at h <;> (cases h; exact ⟨hm, rfl, hw⟩)
        · cases h; exact ⟨hm, rfl, hw⟩
    · cases h; exact ⟨hm, rfl, hw⟩
  · cases h
    exact ⟨hm, rfl, fun t ht => he t (by rw [← ht])⟩
  · cases h; exact ⟨hm, rfl, hw⟩

theorem cTabread_inv {other : Nat} {ts : List (Table α)} {r r' : CTabread} {l : Nat} {m : Msg} {v : Option α}
    (hr : ∀ t, r.table = some t → t < ts.length) (he : ∀ t, m = .table (some t) → t < ts.length)
    (h : cTabread other ts r l m = .ok (r', v)) : ∀ t, r'.table = some t → t < ts.length := by
  unfold cTabread at h
  split at h
  · split at h
    · split at h
      · split at h
        · cases h
        · simp only [bind, Except.bind] at h
          split at h
          · split at h
            · cases h
            · cases h; exact hr
          · cases h; exact hr
      · cases h; exact hr
    · cases h; exact hr
  · cases h; exact fun t ht => he t (by rw [← ht])
  · cases h; exact hr

theorem Reach.inv {k other : Nat} {val : Flt → α} {W : World α} (h : Reach k other val W) : WInv k W := by
  induction h with
  | init a b c => exact ⟨a, b, c⟩
  | @step W W' e v _ hok hs ih =>
    obtain ⟨a, b, c⟩ := ih
    cases e with
    | read l m =>
      simp only [event, bind, Except.bind] at hs
      split at hs
      · cases hs
      · rename_i x hx
        cases hs
        exact ⟨a, cTabread_inv b (fun t ht => by subst ht; exact hok) hx, c⟩
    | write l m =>
      simp only [event, bind, Except.bind] at hs
      split at hs
      · cases hs
      · rename_i x hx
        cases hs
        obtain ⟨h1, h2, h3⟩ := cTabwrite_inv a c (fun t ht => by subst ht; exact hok) hx
        exact ⟨h1, fun t ht => by have := b t ht; simp only [h2]; omega, fun t ht => by have := h3 t ht; simp only [h2]; omega⟩
    | resize t A n =>
      simp only [event, bind, Except.bind] at hs
      split at hs
      · cases hs; exact ⟨a, b, c⟩
      · rename_i T hT
        split at hs
        · cases hs
        · rename_i T' hT'
          cases hs
          exact ⟨made_set a (.resize (made_get a hT) hok hT'), fun t ht => by have := b t ht; simpa using this,
            fun t ht => by have := c t ht; simpa using this⟩
    | poke t buf =>
      simp only [event] at hs
      split at hs
      · cases hs; exact ⟨a, b, c⟩
      · rename_i T hT
        cases hs
        refine ⟨made_set a (.write (h := T.head) (made_get a hT) (by split <;> simp_all)), fun t ht => by have := b t ht; simpa using this,
            fun t ht => by have := c t ht; simpa using this⟩

/-- **C18**, reading: after any history, `[tabread]` with any message never accesses memory outside the table; a
float index whose integer part is inside the usable size gives exactly that sample, any other index (negative, NaN,
too large) gives nothing.  Values too large for 32 bits are converted by the platform to anything (`other`). -/
theorem tabread_correct {k other : Nat} (hk : k ≤ 28) {val : Flt → α} {W : World α} (h : Reach k other val W) (m : Msg)
    (letIn : Nat) :
    (∃ W' v, event k other val W (.read letIn m) = .ok (W', v)) ∧
    (∀ f t T, W.r.table = some t → W.ts[t]? = some T →
      event k other val W (.read 0 (.float f)) =
        .ok (W, if f.geZero ∧ f.toU32 other < T.size then T.buf[f.toU32 other]? else none)) := by
  obtain ⟨a, b, c⟩ := h.inv
  have hread : ∀ (t : Nat) (T : Table α) (x : Nat), W.ts[t]? = some T → x < T.size → ∃ v, readAt T x = .ok v ∧ T.buf[x]? = some v := by
    intro t T x hT hx
    have := (made_get a hT).ok hk |>.1.room
    obtain ⟨v, hv⟩ : ∃ v, T.buf[x]? = some v := ⟨_, List.getElem?_eq_getElem (by omega)⟩
    exact ⟨v, by simp [readAt, hv], hv⟩
  have key : ∀ f t T, W.r.table = some t → W.ts[t]? = some T →
      event k other val W (.read 0 (.float f)) =
        .ok (W, if f.geZero ∧ f.toU32 other < T.size then T.buf[f.toU32 other]? else none) := by
    intro f t T ht hT
    simp only [event, cTabread, ht, hT, bind, Except.bind]
    by_cases h1 : f.geZero = true
    · by_cases h2 : f.toU32 other < T.size
      · obtain ⟨v, e1, e2⟩ := hread t T _ hT h2
        simp [h1, h2, e1, e2]
      · simp [h1, h2]
    · simp [h1]
  refine ⟨?_, key⟩
  by_cases hc : letIn = 0 ∧ ∃ f, m = .float f
  · obtain ⟨rfl, f, rfl⟩ := hc
    cases ht : W.r.table with
    | none => exact ⟨W, none, by simp [event, cTabread, ht, bind, Except.bind]⟩
    | some t =>
      have := b t ht
      exact ⟨_, _, key f t _ ht (List.getElem?_eq_getElem this)⟩
  · suffices hx : ∃ x, cTabread other W.ts W.r letIn m = .ok x by
      obtain ⟨x, hx⟩ := hx
      exact ⟨_, _, by simp only [event, hx, bind, Except.bind]; rfl⟩
    unfold cTabread
    split
    · exact absurd ⟨rfl, _, rfl⟩ hc
    · exact ⟨_, rfl⟩
    · exact ⟨_, rfl⟩

/-- **C18**, writing: setting an in-range index and sending a value writes exactly that sample, and reading it
back gives the value -/
theorem tabwrite_correct {k other : Nat} (hk : k ≤ 28) {val : Flt → α} {W : World α} (h : Reach k other val W)
    (t : Nat) (T : Table α) (ht : W.w.table = some t) (hT : W.ts[t]? = some T) (x y : Flt)
    (hx : x.geZero = true) (hin : x.toU32 other < T.size) :
    ∃ W1 W2, event k other val W (.write 1 (.float x)) = .ok (W1, none) ∧ W1.ts = W.ts ∧
      event k other val W1 (.write 0 (.float y)) = .ok (W2, none) ∧
      W2.ts = W.ts.set t { T with buf := T.buf.set (x.toU32 other) (val y) } ∧
      (W2.r.table = some t → event k other val W2 (.read 0 (.float x)) = .ok (W2, some (val y))) := by
  have hroom := (made_get h.inv.made hT).ok hk |>.1.room
  have hlt := h.inv.wok t ht
  let W1 : World α := { W with w := { W.w with x := x.toU32 other } }
  let W2 : World α := { W1 with ts := W.ts.set t { T with buf := T.buf.set (x.toU32 other) (val y) } }
  have e1 : event k other val W (.write 1 (.float x)) = .ok (W1, none) := by
    simp [event, cTabwrite, ht, hT, hx, hin, bind, Except.bind, W1]
  have e2 : event k other val W1 (.write 0 (.float y)) = .ok (W2, none) := by
    simp [event, cTabwrite, ht, hT, bind, Except.bind, W1, W2, writeAt, show x.toU32 other < T.buf.length by omega]
  refine ⟨W1, W2, e1, rfl, e2, rfl, fun hr => ?_⟩
  have hR1 : Reach k other val W1 := .step h (by trivial) e1
  have hR2 : Reach k other val W2 := .step hR1 (by trivial) e2
  have := (tabread_correct hk hR2 .bang 0).2 x t { T with buf := T.buf.set (x.toU32 other) (val y) } hr
    (by simp [W2, hlt])
  rw [this, if_pos ⟨hx, hin⟩]
  simp [show x.toU32 other < T.buf.length by omega]

/-- histories in which the index stored in `[tabwrite]` cannot become stale: its table is never switched to one that is
too small, and tables are never made smaller -/
def Tame (k : Nat) (W : World α) : Ev α → Prop
  | .write 2 (.table (some t)) => ∀ T, W.ts[t]? = some T → W.w.x < T.size
  | .resize t _ n => ∀ T, W.ts[t]? = some T → T.size ≤ up k n
  | _ => True

/-- reachable by tame events, from a world where the stored index (0 after `cTabwrite_init`) is in range -/
inductive TReach (k other : Nat) (val : Flt → α) : World α → Prop
  | init {W : World α} : (∀ T ∈ W.ts, Made k true T) → (∀ t, W.r.table = some t → t < W.ts.length) →
      (∀ t, W.w.table = some t → ∃ T, W.ts[t]? = some T ∧ W.w.x < T.size) → TReach k other val W
  | step {W W' : World α} {e : Ev α} {v : Option α} :
      TReach k other val W → EvOk k W e → Tame k W e → event k other val W e = .ok (W', v) → TReach k other val W'

theorem TReach.reach {k other : Nat} {val : Flt → α} {W : World α} (h : TReach k other val W) : Reach k other val W := by
  induction h with
  | init a b c =>
    exact .init a b fun t ht => by
      obtain ⟨T, hT, -⟩ := c t ht
      exact (List.getElem?_eq_some_iff.1 hT).1
  | step _ hok _ hs ih => exact .step ih hok hs

theorem cTabwrite_keeps {other : Nat} {val : Flt → α} {ts ts' : List (Table α)} {w w' : CTabwrite} {l : Nat} {m : Msg}
    (hw : ∀ t, w.table = some t → ∃ T, ts[t]? = some T ∧ w.x < T.size)
    (he : ∀ t, l = 2 → m = .table (some t) → ∃ T, ts[t]? = some T ∧ w.x < T.size)
    (h : cTabwrite other val ts w l m = .ok (w', ts')) :
    ∀ t, w'.table = some t → ∃ T, ts'[t]? = some T ∧ w'.x < T.size := by
  unfold cTabwrite at h
  split at h
  · split at h
    · rename_i t ht
      split at h
      · cases h
      · rename_i T hT
        simp only [bind, Except.bind] at h
        split at h
        · cases h
        · rename_i T' hT'
          cases h
          obtain ⟨-, rfl⟩ := writeAt_ok hT'
          intro t' ht'
          obtain ⟨T1, g1, g2⟩ := hw t' ht'
          rw [ht] at ht'
          cases ht'
          rw [hT] at g1; cases g1
          exact ⟨{ T with buf := T.buf.set w.x (val ‹_›) }, by rw [List.getElem?_set_self (List.getElem?_eq_some_iff.1 hT).1], g2⟩
    · cases h; exact hw
  · split at h
    · rename_i t ht
      split at h
      · cases h
      · rename_i T hT
        split at h
        · split at h
          · cases h
            intro t' ht'
            simp only at ht'
            rw [ht] at ht'; cases ht'
            exact ⟨T, hT, ‹_›⟩
          · cases h; exact hw
        · cases h; exact hw
    · cases h; exact hw
  · cases h
    exact fun t ht => he t rfl (by rw [← ht])
  · cases h; exact hw

theorem TReach.inRange {k other : Nat} (hk : k ≤ 28) {val : Flt → α} {W : World α} (h : TReach k other val W) :
    ∀ t, W.w.table = some t → ∃ T, W.ts[t]? = some T ∧ W.w.x < T.size := by
  induction h with
  | init a b c => exact c
  | @step W W' e v hR hok htame hs ih =>
    have hinv := hR.reach.inv
    cases e with
    | read l m =>
      simp only [event, bind, Except.bind] at hs
      split at hs
      · cases hs
      · cases hs; exact ih
    | write l m =>
      simp only [event, bind, Except.bind] at hs
      split at hs
      · cases hs
      · rename_i x hx
        cases hs
        refine cTabwrite_keeps ih (fun t h2 hm => ?_) hx
        subst h2 hm
        have hlt : t < W.ts.length := hok
        exact ⟨_, List.getElem?_eq_getElem hlt, htame _ (List.getElem?_eq_getElem hlt)⟩
    | resize t A n =>
      simp only [event, bind, Except.bind] at hs
      split at hs
      · cases hs; exact ih
      · rename_i T hT
        split at hs
        · cases hs
        · rename_i T' hT'
          cases hs
          intro t' ht'
          obtain ⟨T1, g1, g2⟩ := ih t' ht'
          by_cases htt : t = t'
          · subst htt
            rw [hT] at g1; cases g1
            refine ⟨T', by simp [(List.getElem?_eq_some_iff.1 hT).1], ?_⟩
            obtain ⟨T2, e2, s2, -⟩ := resize_spec hk A ((made_get hinv.made hT).ok hk).1 hok
            rw [hT'] at e2; cases e2
            have := htame T hT
            simp only
            omega
          · exact ⟨T1, by simp only [List.getElem?_set_ne htt]; exact g1, g2⟩
    | poke t buf =>
      simp only [event] at hs
      split at hs
      · cases hs; exact ih
      · rename_i T hT
        cases hs
        intro t' ht'
        obtain ⟨T1, g1, g2⟩ := ih t' ht'
        by_cases htt : t = t'
        · subst htt
          rw [hT] at g1; cases g1
          exact ⟨{ T with buf := if buf.length = T.buf.length then buf else T.buf }, by simp [(List.getElem?_eq_some_iff.1 hT).1], g2⟩
        · exact ⟨T1, by simp only [List.getElem?_set_ne htt]; exact g1, g2⟩

/-- **C18**, writing (partial): no message to `[tabwrite]` makes it access memory outside its table, in histories where
tables do not shrink and the table of the writer is not switched to a smaller one.  Otherwise it does: see
`tabwrite_stale_index_faults`. -/
theorem tabwrite_in_bounds_partial {k other : Nat} (hk : k ≤ 28) {val : Flt → α} {W : World α}
    (h : TReach k other val W) (letIn : Nat) (m : Msg) :
    ∃ W' v, event k other val W (.write letIn m) = .ok (W', v) := by
  have hir := h.inRange hk
  have hinv := h.reach.inv
  suffices hx : ∃ x, cTabwrite other val W.ts W.w letIn m = .ok x by
    obtain ⟨x, hx⟩ := hx
    exact ⟨_, _, by simp only [event, hx, bind, Except.bind]; rfl⟩
  unfold cTabwrite
  split
  · split
    · rename_i t ht
      obtain ⟨T, g1, g2⟩ := hir t ht
      have := ((made_get hinv.made g1).ok hk).1.room
      simp [g1, writeAt, show W.w.x < T.buf.length by omega, bind, Except.bind]
    · exact ⟨_, rfl⟩
  · split
    · rename_i t ht
      obtain ⟨T, g1, g2⟩ := hir t ht
      simp only [g1]
      split
      · split <;> exact ⟨_, rfl⟩
      · exact ⟨_, rfl⟩
    · exact ⟨_, rfl⟩
  · exact ⟨_, rfl⟩
  · exact ⟨_, rfl⟩

/-- finding F10: the index is only checked when it is set.  With four lanes and a table of 100 samples, setting
index 99, resizing the table to 10 samples and sending a value writes outside the buffer. -/
theorem tabwrite_stale_index_faults (junk : Nat → Int) (A : Alloc Int) (val : Flt → Int) (y : Flt) :
    ∃ T W1 W2 W3, init 2 junk 100 = .ok T ∧
      W1 = World.mk [T] ⟨none⟩ ⟨some 0, 0⟩ ∧
      event 2 0 val W1 (.write 1 (.float (.fin 99))) = .ok (W2, none) ∧
      event 2 0 val W2 (.resize 0 A 10) = .ok (W3, none) ∧
      event 2 0 val W3 (.write 0 (.float y)) = .error .ub := by
  obtain ⟨T, e, h1, h2, h3, -⟩ := init_spec (k := 2) (by decide) junk (n := 100) (by decide)
  obtain ⟨T', e', s1, -, -, s4⟩ := resize_spec (k := 2) (by decide) A h1.toOk (n := 10) (by decide)
  obtain ⟨-, hF, -⟩ := s4 (by rw [h3]; decide)
  have hl : T'.buf.length = 16 := by rw [hF.full, hF.alloc, s1]; decide
  have hs : T.size = 100 := by rw [h3]; decide
  have hu : (Flt.fin 99).toU32 0 = 99 := by decide
  have hg : (Flt.fin 99).geZero = true := by decide
  refine ⟨T, _, World.mk [T] ⟨none⟩ ⟨some 0, 99⟩, World.mk [T'] ⟨none⟩ ⟨some 0, 99⟩, e, rfl, ?_, ?_, ?_⟩
  · simp [event, cTabwrite, bind, Except.bind, hs, hu, hg]
  · simp [event, bind, Except.bind, e']
  · simp [event, cTabwrite, bind, Except.bind, writeAt, hl]

/-- the hypotheses are satisfiable: a world with one table of 100 samples -/
example (junk : Nat → Int) (val : Flt → Int) :
    ∃ W : World Int, TReach 2 0 val W ∧ W.ts.length = 1 ∧ W.w.table = some 0 ∧ W.r.table = some 0 := by
  obtain ⟨T, e, h1, h2, h3, -⟩ := init_spec (k := 2) (by decide) junk (n := 100) (by decide)
  refine ⟨World.mk [T] ⟨some 0⟩ ⟨some 0, 0⟩, .init ?_ ?_ ?_, rfl, rfl, rfl⟩
  · intro T' hT'
    simp at hT'
    subst hT'
    exact .init (by decide) e
  · intro t ht; simp at ht; simp [← ht]
  · intro t ht
    simp at ht
    subst ht
    exact ⟨T, rfl, by rw [h3]; show 0 < up 2 100; decide⟩

end Verif.Tab
