import Verif.LibPolyStop
/-!
C71: `[poly]`, the voice allocator.
-/
set_option linter.unusedSimpArgs false
set_option maxRecDepth 10000
set_option maxHeartbeats 1000000
namespace Verif.Lib.Poly
open Verif.Control (Dest Kind Cast Patch Act Sys Env Big)
variable {a2 : ℚ} {n : Nat} {c : Ctx} {s s' : St} {l : Calls}

/-! ## what is found -/

/-- looking at the voices, one after the other -/
def find (P : Voice → Bool) (vs : List Voice) : List Voice → Nat → Option Nat → Option Nat
  | [], _, x => x
  | v :: r, i, x => find P vs r (i + 1) (if P v = true ∧ (v.id : ℚ) < low vs x then some i else x)

theorem find_isOldest {P : Voice → Bool} {vs : List Voice} (hid : ∀ v ∈ vs, v.id < 65535) (r : List Voice) : ∀ (i : Nat) (x : Option Nat),
    vs.drop i = r → IsOldest P (vs.take i) x → IsOldest P vs (find P vs r i x) := by
  induction r with
  | nil =>
    intro i x hr hx
    have : vs.take i = vs := by
      rw [List.take_of_length_le]
      simpa using hr
    rw [this] at hx
    exact hx
  | cons v r ih =>
    intro i x hr hx
    have hv : vs[i]? = some v := by
      have := congrArg List.head? hr
      simpa using this
    have hlt := (List.getElem?_eq_some_iff.mp hv).1
    refine ih (i + 1) _ (by have := congrArg List.tail hr; simpa using this) ?_
    have hmem : v ∈ vs := List.mem_of_getElem? hv
    have htake : ∀ j w, (vs.take (i + 1))[j]? = some w → (vs.take i)[j]? = some w ∨ (j = i ∧ w = v) := by
      intro j w h
      rw [List.getElem?_take] at h ⊢
      by_cases hj : j < i
      · left; rw [if_pos hj]; rwa [if_pos (by omega)] at h
      · by_cases hj' : j = i
        · right; rw [hj', if_pos (by omega), hv] at h; exact ⟨hj', by simpa using h.symm⟩
        · rw [if_neg (by omega)] at h; cases h
    have hself : (vs.take (i + 1))[i]? = some v := by
      rw [List.getElem?_take, if_pos (by omega), hv]
    have hold : ∀ j w, (vs.take i)[j]? = some w → j < i ∧ vs[j]? = some w ∧ (vs.take (i + 1))[j]? = some w := by
      intro j w h
      rw [List.getElem?_take] at h
      by_cases hj : j < i
      · rw [if_pos hj] at h
        exact ⟨hj, h, by rw [List.getElem?_take, if_pos (by omega), h]⟩
      · rw [if_neg hj] at h; cases h
    cases x with
    | none =>
      have hlow : low vs none = 65535 := rfl
      have : (v.id : ℚ) < 65535 := by exact_mod_cast hid v hmem
      simp only [hlow, this, and_true]
      by_cases hP : P v = true
      · rw [if_pos hP]
        refine ⟨v, hself, hP, ?_⟩
        intro j w hw hPw
        rcases htake j w hw with h | ⟨rfl, rfl⟩
        · rw [hx w (List.mem_of_getElem? h)] at hPw; cases hPw
        · exact ⟨le_refl _, fun h => absurd h (by omega)⟩
      · rw [if_neg hP]
        intro w hw
        obtain ⟨j, hj⟩ := List.mem_iff_getElem?.mp hw
        rcases htake j w hj with h | ⟨rfl, rfl⟩
        · exact hx w (List.mem_of_getElem? h)
        · simpa using hP
    | some k =>
      obtain ⟨u, hu, hPu, hmin⟩ := hx
      obtain ⟨hk, hu', hu''⟩ := hold k u hu
      have hlow : low vs (some k) = u.id := by simp [low, hu']
      rw [hlow]
      by_cases hc : P v = true ∧ (v.id : ℚ) < u.id
      · rw [if_pos hc]
        have hlt' : v.id < u.id := by exact_mod_cast hc.2
        refine ⟨v, hself, hc.1, ?_⟩
        intro j w hw hPw
        rcases htake j w hw with h | ⟨rfl, rfl⟩
        · have := (hmin j w h hPw).1
          exact ⟨by omega, fun _ => by omega⟩
        · exact ⟨le_refl _, fun h => absurd h (by omega)⟩
      · rw [if_neg hc]
        refine ⟨u, hu'', hPu, ?_⟩
        intro j w hw hPw
        rcases htake j w hw with h | ⟨rfl, rfl⟩
        · exact hmin j w h hPw
        · have : ¬ w.id < u.id := fun h => hc ⟨hPw, by exact_mod_cast h⟩
          exact ⟨by omega, fun h => absurd h (by omega)⟩

theorem find_eq {P : Voice → Bool} {vs : List Voice} (hid : ∀ v ∈ vs, v.id < 65535) : find P vs vs 0 none = oldest P vs :=
  (oldest_iff.mpr (find_isOldest hid vs 0 none rfl (by simp [IsOldest]))).symm

theorem scan_find (vs r : List Voice) : ∀ (i : Nat) (x : Scan), scan vs r i x = ⟨find (fun v => v.used) vs r i x.on, find (fun v => !v.used) vs r i x.off⟩ := by
  induction r with
  | nil => intro i x; rfl
  | cons v r ih =>
    intro i x
    rw [scan, ih]
    cases hu : v.used <;> simp [find, Scan.next, hu]

theorem scanOff_find (vs : List Voice) (p : ℚ) (r : List Voice) : ∀ (i : Nat) (x : Option Nat), scanOff vs p r i x = find (fun v => v.used && decide (v.pitch = p)) vs r i x := by
  induction r with
  | nil => intro i x; rfl
  | cons v r ih =>
    intro i x
    rw [scanOff, ih]
    simp only [find, nextOff]
    congr 1
    simp [and_assoc]

theorem noteOn_eq {A : Alloc} {steal : Bool} {p v : ℚ} (hid : ∀ v ∈ A.voices, v.id < 65535) (hv : 0 < v) :
    noteOn steal A.voices A.next p v (scan A.voices A.voices 0 ⟨none, none⟩) =
      ((A.note steal p v).1.voices, (A.note steal p v).1.next, (A.note steal p v).2.flatMap Note.out) := by
  rw [scan_find, find_eq hid, find_eq hid, Alloc.note, if_pos hv]
  cases h1 : oldest (fun x => !x.used) A.voices with
  | some i => simp [noteOn, Alloc.change, say, Note.out]
  | none =>
    cases steal with
    | false => simp [noteOn]
    | true => cases h2 : oldest (fun x => x.used) A.voices <;> simp [noteOn, Alloc.change, say, Note.out]

theorem noteOff_eq {A : Alloc} {steal : Bool} {p v : ℚ} (hid : ∀ v ∈ A.voices, v.id < 65535) (hv : ¬ 0 < v) :
    noteOff A.voices A.next p (scanOff A.voices p A.voices 0 none) =
      ((A.note steal p v).1.voices, (A.note steal p v).1.next, (A.note steal p v).2.flatMap Note.out) := by
  rw [scanOff_find, find_eq hid, Alloc.note, if_neg hv]
  cases h1 : oldest (fun x => x.used && decide (x.pitch = p)) A.voices <;> simp [noteOff, Alloc.change, say, Note.out]

theorem stopAll_eq (r : List Voice) : ∀ (i k : Nat), stopAll r i k =
    ((fun k => k % 65535 + 1)^[(r.filter (·.used)).length] k, (((r.zipIdx i).filter (·.1.used)).map fun x => (⟨0, x.1.pitch, x.2⟩ : Note)).flatMap Note.out) := by
  induction r with
  | nil => intro i k; rfl
  | cons v r ih =>
    intro i k
    cases hu : v.used <;> simp [stopAll, hu, ih, say, Note.out]


/-! ## the messages -/

/-- the gates and the velocities kept -/
def VelMem (o : Option ℚ) (s : St) : Prop :=
  match o with
  | some v => s.mem 53 = [.float (tf (0 < v))] ∧ s.mem 59 = [.float (tf (¬ 0 < v))] ∧ (∃ w : ℚ, s.mem 598 = [.float w, .float v]) ∧ ∃ w : ℚ, s.mem 270 = [.float w, .float v]
  | none => s.mem 53 = [.float 0] ∧ s.mem 59 = [.float 0] ∧ (∃ w : ℚ, s.mem 598 = [.float w, .float 0]) ∧ ∃ w : ℚ, s.mem 270 = [.float w, .float 0]

structure Mem (n : Nat) (steal : ℚ) (A : Alloc) (s : St) : Prop where
  fixed : Fixed n steal s
  vary : Vary steal s
  tabs : Tabs A.voices s
  count : s.mem 14 = [.float A.next]
  vel : VelMem A.vel s
  len : A.voices.length = n
  ids : ∀ v ∈ A.voices, v.id < 65535

theorem VelMem.done {o : Option ℚ} {steal : ℚ} {vs : List Voice} {k : Nat} {out : List (Nat × Msg)} {s s1 : St} (h : VelMem o s) (d : Done steal vs k out s s1) : VelMem o s1 := by
  cases o with
  | none =>
    obtain ⟨h1, h2, ⟨w, h3⟩, ⟨w', h4⟩⟩ := h
    exact ⟨by rw [d.mem _ (by decide), h1], by rw [d.mem _ (by decide), h2], d.vel1 _ _ h3, d.vel2 _ _ h4⟩
  | some v =>
    obtain ⟨h1, h2, ⟨w, h3⟩, ⟨w', h4⟩⟩ := h
    exact ⟨by rw [d.mem _ (by decide), h1], by rw [d.mem _ (by decide), h2], d.vel1 _ _ h3, d.vel2 _ _ h4⟩

theorem Mem.done {steal : ℚ} {A B : Alloc} {out : List (Nat × Msg)} {s s1 : St} (h : Mem n steal A s) (d : Done steal B.voices B.next out s s1) (hv : B.vel = A.vel)
    (hl : B.voices.length = n) (hi : ∀ v ∈ B.voices, v.id < 65535) : Mem n steal B s1 :=
  ⟨h.fixed.keep d.mem, d.vary, d.tabs, d.count, by rw [hv]; exact h.vel.done d, hl, hi⟩

theorem change_len {A : Alloc} {i : Nat} {p : ℚ} {b : Bool} : (A.change i p b).voices.length = A.voices.length := by simp [Alloc.change]
theorem change_ids {A : Alloc} {i : Nat} {p : ℚ} {b : Bool} (h : ∀ v ∈ A.voices, v.id < 65535) : ∀ v ∈ (A.change i p b).voices, v.id < 65535 := by
  intro v hv
  rcases List.mem_or_eq_of_mem_set hv with hv | rfl
  · exact h v hv
  · exact Nat.mod_lt _ (by decide)

theorem note_keeps {A : Alloc} {steal : Bool} {p v : ℚ} (h : ∀ v ∈ A.voices, v.id < 65535) :
    (A.note steal p v).1.vel = A.vel ∧ (A.note steal p v).1.voices.length = A.voices.length ∧ ∀ x ∈ (A.note steal p v).1.voices, x.id < 65535 := by
  unfold Alloc.note
  repeat' split
  all_goals first | exact ⟨rfl, change_len, change_ids h⟩ | exact ⟨rfl, rfl, h⟩

section
attribute [-lib_poly] n553 n270
theorem note_run {steal : ℚ} {A : Alloc} {p v : ℚ} (hm : Mem n steal A s) (hv : A.vel = some v) (hN : Names c) (hn : 0 < n) :
    ∃ s', Ends (sys n a2 c) [((61, 0), [.float p])] s s' ∧ Mem n steal (A.note (steal ≠ 0) p v).1 s' ∧ s'.q = s.q ∧
      s'.log = s.log ++ ((A.note (steal ≠ 0) p v).2.flatMap Note.out).map fun y => (s.now, y) := by
  have hV := hm.vel
  rw [hv] at hV
  obtain ⟨g1, g2, ⟨w, g3⟩, ⟨w', g4⟩⟩ := hV
  obtain ⟨k1, k2, k3⟩ := note_keeps (steal := decide (steal ≠ 0)) (p := p) (v := v) hm.ids
  by_cases hp : 0 < v
  · obtain ⟨s1, e1, d1⟩ := on_run (a2 := a2) (p := p) hm.fixed hm.vary hN hm.tabs hm.count g3 hn hm.len
    rw [noteOn_eq hm.ids hp] at d1
    refine ⟨s1, ?_, hm.done d1 k1 (k2.trans hm.len) k3, d1.q, d1.log⟩
    have g2' : s1.mem 59 = [.float 0] := by rw [d1.mem _ (by decide), g2]; simp [tf, hp]
    have e : Ends (sys n a2 c) [((553, 0), [.float p]), ((55, 0), [.float p])] s s1 := by
      refine ends_trans e1 ?_
      simp [lib_step, lib_poly, g2']
    simpa [lib_step, lib_poly, g1, tf, hp] using e
  · obtain ⟨s1, e1, d1⟩ := off_run (a2 := a2) (p := p) hm.fixed hm.vary hN hm.tabs hm.count g4 hn hm.len
    rw [noteOff_eq (steal := decide (steal ≠ 0)) hm.ids hp] at d1
    refine ⟨s1, ?_, hm.done d1 k1 (k2.trans hm.len) k3, d1.q, d1.log⟩
    simpa [lib_step, lib_poly, g1, g2, tf, hp] using e1
end

theorem vel_run {steal : ℚ} {A : Alloc} (v : ℚ) (hm : Mem n steal A s) :
    ∃ s1, (∀ s' l, Ends (sys n a2 c) l s1 s' → Ends (sys n a2 c) (((41, 0), [.float v]) :: l) s s') ∧ Mem n steal { A with vel := some v } s1 ∧ s1.q = s.q ∧
      s1.log = s.log ∧ s1.now = s.now := by
  obtain ⟨w, h1⟩ : ∃ w x : ℚ, s.mem 598 = [.float w, .float x] := by
    have := hm.vel
    cases h : A.vel <;> rw [h] at this <;> obtain ⟨-, -, ⟨w, h⟩, -⟩ := this <;> exact ⟨w, _, h⟩
  obtain ⟨x, h1⟩ := h1
  obtain ⟨w', h2⟩ : ∃ w x : ℚ, s.mem 270 = [.float w, .float x] := by
    have := hm.vel
    cases h : A.vel <;> rw [h] at this <;> obtain ⟨-, -, -, ⟨w, h⟩⟩ := this <;> exact ⟨w, _, h⟩
  obtain ⟨x', h2⟩ := h2
  have et : ∀ p : Prop, ∀ [Decidable p], (tf (tf p = 0) = tf (¬ p)) := fun p _ => by by_cases h : p <;> simp [tf, h]
  refine ⟨?s1, ?q1, ?_⟩
  case q1 =>
    intro s' l h
    simp [lib_step, lib_poly, h1, h2, et]
    exact h
  obtain ⟨⟨a1,a2,a3,a4,a5,a6,a7,a8,a9,a10,a11,a12,a13,a14,a15,a16,a17,a18,a19,a20⟩, ⟨⟨z, hz⟩, h0⟩, ⟨t1, t2, t3⟩, hc, -, hl, hi⟩ := hm
  refine ⟨⟨?_, ⟨⟨z, by simp [lib_step, hz]⟩, fun e => by simp [lib_step, h0 e]⟩, ⟨t1, t2, t3⟩, by simp [lib_step, hc], ?_, hl, hi⟩, rfl, rfl, rfl⟩
  · refine ⟨?_,?_,?_,?_,?_,?_,?_,?_,?_,?_,?_,?_,?_,?_,?_,?_,?_,?_,?_,?_⟩ <;> simp [lib_step, *]
  · refine ⟨?_, ?_, ⟨w, ?_⟩, ⟨w', ?_⟩⟩ <;> simp [lib_step, et]

theorem list_run {steal : ℚ} {A : Alloc} {p v : ℚ} (hm : Mem n steal A s) (hN : Names c) (hn : 0 < n) :
    ∃ s', Ends (sys n a2 c) [((0, 0), [.float p, .float v])] s s' ∧ Mem n steal (({ A with vel := some v } : Alloc).note (steal ≠ 0) p v).1 s' ∧ s'.q = s.q ∧
      s'.log = s.log ++ ((({ A with vel := some v } : Alloc).note (steal ≠ 0) p v).2.flatMap Note.out).map fun y => (s.now, y) := by
  obtain ⟨s1, e1, m1, q1, l1, w1⟩ := vel_run (a2 := a2) (c := c) v hm
  obtain ⟨s2, e2, m2, q2, l2⟩ := note_run (a2 := a2) (p := p) m1 rfl hN hn
  refine ⟨s2, ?_, m2, by rw [q2, q1], by rw [l2, l1, w1]⟩
  have e := e1 s2 [((39, 0), [.float p, .float v])] (by simpa [lib_step, n39, o39_0, n40] using e2)
  simpa [lib_step, n0_0, n26_0, n29, o29_0, o29_1, o29_2, n30, n35_0, n37, o37_0, n38, n39, o39_0, n40, key, List.findIdx_cons] using e

theorem pitch_run {steal : ℚ} {A : Alloc} {p v : ℚ} (hm : Mem n steal A s) (hv : A.vel = some v) (hN : Names c) (hn : 0 < n) :
    ∃ s', Ends (sys n a2 c) [((0, 0), [.float p])] s s' ∧ Mem n steal (A.note (steal ≠ 0) p v).1 s' ∧ s'.q = s.q ∧
      s'.log = s.log ++ ((A.note (steal ≠ 0) p v).2.flatMap Note.out).map fun y => (s.now, y) := by
  obtain ⟨s2, e2, m2, q2, l2⟩ := note_run (a2 := a2) (p := p) hm hv hN hn
  refine ⟨s2, ?_, m2, q2, l2⟩
  simpa [lib_step, n0_0, n26_0, n29, o29_0, o29_1, o29_2, n30, n35_0, n37, o37_0, o37_1, n38, n39, o39_0, n40, key, List.findIdx_cons] using e2

theorem pitch_none {steal : ℚ} {A : Alloc} {p : ℚ} (hm : Mem n steal A s) (hv : A.vel = none) :
    Ends (sys n a2 c) [((0, 0), [.float p])] s s := by
  have := hm.vel
  rw [hv] at this
  obtain ⟨h1, h2, -, -⟩ := this
  simp [lib_step, lib_poly, h1, h2, key, List.findIdx_cons]

section
attribute [-lib_poly] n328 n459
theorem stop_msg {steal : ℚ} {A : Alloc} (hm : Mem n steal A s) (hN : Names c) (hn : 0 < n) :
    ∃ s', Ends (sys n a2 c) [((0, 0), [.sym "stop"])] s s' ∧ Mem n steal A.stop.1 s' ∧ s'.q = s.q ∧
      s'.log = s.log ++ (A.stop.2.flatMap Note.out).map fun y => (s.now, y) := by
  obtain ⟨s1, e1, d1⟩ := stop_run (a2 := a2) hm.fixed hm.vary hN hm.tabs hn hm.len
  rw [stopAll_eq] at d1
  refine ⟨s1, ?_, hm.done (B := A.stop.1) d1 rfl (by simp [Alloc.stop, hm.len]) ?_, d1.q, d1.log⟩
  · simpa [lib_step, lib_poly, key, List.findIdx_cons] using e1
  · intro v hv
    simp only [Alloc.stop, List.mem_map] at hv
    obtain ⟨w, hw, rfl⟩ := hv
    exact hm.ids w hw

theorem clear_msg {steal : ℚ} {A : Alloc} (hm : Mem n steal A s) (hn : 0 < n) :
    ∃ s', Ends (sys n a2 c) [((0, 0), [.sym "clear"])] s s' ∧ Mem n steal A.clear s' ∧ s'.q = s.q ∧ s'.log = s.log := by
  obtain ⟨s1, e1, d1⟩ := clear_run (a2 := a2) (c := c) hm.fixed hm.vary hm.tabs hn hm.len
  refine ⟨s1, ?_, hm.done (B := A.clear) d1 rfl (by simp [Alloc.clear, hm.len]) ?_, d1.q, by simpa using d1.log⟩
  · simpa [lib_step, lib_poly, key, List.findIdx_cons] using e1
  · intro v hv
    simp only [Alloc.clear, List.mem_map] at hv
    obtain ⟨w, hw, rfl⟩ := hv
    decide
end

theorem boot_run (hn : 0 < n) (tab : Nat → List ℚ) (htab : ∀ t < 3, tab t = List.replicate n 0) : ∃ s', Ends (sys n a2 c) [((8, 0), [.bang])] (start c (nodes n a2) tab) s' ∧
    Mem n (if a2 = 0 then 0 else 1) (.new n) s' ∧ s'.q = [] ∧ s'.log = [] := by
  generalize hs : start c (nodes n a2) tab = s
  have k9 : s.mem 9 = [.float a2] := by rw [← hs]; rfl
  have k14 : s.mem 14 = [.float 0] := by rw [← hs]; rfl
  have k91 : s.mem 91 = [.float 1] := by rw [← hs]; rfl
  have k297 : s.mem 297 = [.float 1] := by rw [← hs]; rfl
  have k415 : s.mem 415 = [.float 1] := by rw [← hs]; rfl
  have k500 : s.mem 500 = [.float 1] := by rw [← hs]; rfl
  have k109 : s.mem 109 = [.float n] := by rw [← hs]; rfl
  have k315 : s.mem 315 = [.float n] := by rw [← hs]; rfl
  have k433 : s.mem 433 = [.float n] := by rw [← hs]; rfl
  have k518 : s.mem 518 = [.float n] := by rw [← hs]; rfl
  have k129 : s.mem 129 = [.sym "1-used"] := by rw [← hs]; rfl
  have k348 : s.mem 348 = [.sym "1-used"] := by rw [← hs]; rfl
  have k664 : s.mem 664 = [.sym "1-used"] := by rw [← hs]; rfl
  have k151 : s.mem 151 = [.sym "1-ids"] := by rw [← hs]; rfl
  have k686 : s.mem 686 = [.sym "1-ids"] := by rw [← hs]; rfl
  have k187 : s.mem 187 = [.sym "1-pitches"] := by rw [← hs]; rfl
  have k381 : s.mem 381 = [.sym "1-pitches"] := by rw [← hs]; rfl
  have k720 : s.mem 720 = [.sym "1-pitches"] := by rw [← hs]; rfl
  have k812 : s.mem 812 = [.float 0] := by rw [← hs]; rfl
  have k595 : s.mem 595 = [.float 0] := by rw [← hs]; rfl
  have k53 : s.mem 53 = [.float 0] := by rw [← hs]; rfl
  have k59 : s.mem 59 = [.float 0] := by rw [← hs]; rfl
  have k598 : s.mem 598 = [.float 0, .float 0] := by rw [← hs]; rfl
  have k270 : s.mem 270 = [.float 0, .float 0] := by rw [← hs]; rfl
  have kt0 : s.tab 0 = List.replicate n 0 := by rw [← hs]; exact htab 0 (by decide)
  have kt1 : s.tab 1 = List.replicate n 0 := by rw [← hs]; exact htab 1 (by decide)
  have kt2 : s.tab 2 = List.replicate n 0 := by rw [← hs]; exact htab 2 (by decide)
  have kq : s.q = [] := by rw [← hs]; rfl
  have kl : s.log = [] := by rw [← hs]; rfl
  clear hs
  have z0 : Has (s.tab 0) = true := decide_eq_true (by simp [kt0]; omega)
  have ev : tf (¬ a2 = 0) = if a2 = 0 then 0 else 1 := by by_cases h : a2 = 0 <;> simp [tf, h]
  generalize (if a2 = 0 then (0 : ℚ) else 1) = st at ev
  refine ⟨?s1, ?q1, ?_⟩
  case q1 =>
    simp [lib_step, lib_poly, key, List.findIdx_cons, k9]
    rfl
  refine ⟨⟨?_, ⟨⟨0, ?_⟩, fun _ => ?_⟩, ⟨?_, ?_, ?_⟩, ?_, ⟨?_, ?_, ⟨0, ?_⟩, ⟨0, ?_⟩⟩, ?_, ?_⟩, ?_, ?_⟩
  · refine ⟨?_,?_,?_,?_,?_,?_,?_,?_,?_,?_,?_,?_,?_,?_,?_,?_,?_,?_,?_,?_⟩ <;> simp [lib_step, *]
  all_goals simp [lib_step, Alloc.new, *]

/-! ## C71 -/

theorem poly_simulates (hn : 0 < n) (hN : Names c) (tab : Nat → List ℚ) (htab : ∀ t < 3, tab t = List.replicate n 0) :
    Simulates (mach n a2 c) drv (start c (nodes n a2) tab) Fits (poly n (a2 ≠ 0)).step ((poly n (a2 ≠ 0)).init, []) (Quiet (Mem n (if a2 = 0 then 0 else 1))) := by
  have es : decide ((if a2 = 0 then (0 : ℚ) else 1) ≠ 0) = decide (a2 ≠ 0) := by by_cases h : a2 = 0 <;> simp [h]
  apply simulates_of_reacts
  · obtain ⟨s, h1, h2, h3, h4⟩ := boot_run (a2 := a2) (c := c) hn tab htab
    exact ⟨s, h1, h2, h3, h4⟩
  · intro A s t i m hm hq hf
    generalize hst : (if a2 = 0 then (0 : ℚ) else 1) = st at hm es
    have hm' : Mem n st A { s with now := t } := by
      obtain ⟨⟨a1,a2,a3,a4,a5,a6,a7,a8,a9,a10,a11,a12,a13,a14,a15,a16,a17,a18,a19,a20⟩, ⟨⟨z, hz⟩, h0⟩, ⟨t1, t2, t3⟩, hc, hv, hl, hi⟩ := hm
      exact ⟨⟨a1,a2,a3,a4,a5,a6,a7,a8,a9,a10,a11,a12,a13,a14,a15,a16,a17,a18,a19,a20⟩, ⟨⟨z, hz⟩, h0⟩, ⟨t1, t2, t3⟩, hc, hv, hl, hi⟩
    have key : ∃ s', Ends (sys n a2 c) [((0, i), m)] { s with now := t } s' ∧ Mem n st (A.on (a2 ≠ 0) i m).1 s' ∧ s'.q = [] ∧
        s'.log = s.log ++ ((A.on (a2 ≠ 0) i m).2.flatMap Note.out).map fun y => (t, y) := by
      rw [← es]
      match i, m, hf with
      | 0, [.float p], _ =>
        cases hv : A.vel with
        | some v =>
          obtain ⟨s', h1, h2, h3, h4⟩ := pitch_run (a2 := a2) (c := c) (p := p) hm' hv hN hn
          exact ⟨s', h1, by simpa [Alloc.on, hv] using h2, h3.trans hq, by simpa [Alloc.on, hv] using h4⟩
        | none => exact ⟨_, pitch_none hm' hv, by simpa [Alloc.on, hv] using hm', hq, by simp [Alloc.on, hv]⟩
      | 0, [.float p, .float v], _ =>
        obtain ⟨s', h1, h2, h3, h4⟩ := list_run (a2 := a2) (c := c) (p := p) (v := v) hm' hN hn
        exact ⟨s', h1, h2, h3.trans hq, h4⟩
      | 1, [.float v], _ =>
        obtain ⟨s1, e1, m1, q1, l1, -⟩ := vel_run (a2 := a2) (c := c) v hm'
        refine ⟨s1, ?_, m1, q1.trans hq, by simpa [Alloc.on] using l1⟩
        have := e1 s1 [] (ends_nil.mpr rfl)
        simpa [lib_step, n0_1] using this
      | 0, [.sym x], h =>
        rcases h with rfl | rfl
        · obtain ⟨s', h1, h2, h3, h4⟩ := stop_msg (a2 := a2) (c := c) hm' hN hn
          exact ⟨s', h1, by simpa [Alloc.on] using h2, h3.trans hq, by simpa [Alloc.on] using h4⟩
        · obtain ⟨s', h1, h2, h3, h4⟩ := clear_msg (a2 := a2) (c := c) hm' hn
          exact ⟨s', h1, by simpa [Alloc.on] using h2, h3.trans hq, by simpa [Alloc.on] using h4⟩
    obtain ⟨s', h1, h2⟩ := key
    refine ⟨s', ?_, h2⟩
    match i, hf with
    | 0, _ => exact h1
    | 1, _ => exact h1

theorem fits_inlet : ∀ e, Fits e → Inlet e := by
  intro e he
  match e, he with
  | .tick, _ => trivial
  | .ext _ 0 _, _ => show 0 < 2; decide
  | .ext _ 1 _, _ => show 1 < 2; decide

/-- **C71** the code generated for `[poly n s]` (with `n` voices; its three tables exist and are empty) does what the allocator does,
whatever is sent to it -/
theorem poly_partial (hn : 0 < n) (hN : Names c) (tab : Nat → List ℚ) (htab : ∀ t < 3, tab t = List.replicate n 0) {M : Mach} (hM : Code n a2 c M) :
    Does M drv (start c (nodes n a2) tab) Fits (poly n (a2 ≠ 0)) :=
  does_of_simulates (to_code hM fits_inlet (poly_simulates hn hN tab htab)) fun _ _ h => ⟨h.1.q, h.1.log⟩
end Verif.Lib.Poly
