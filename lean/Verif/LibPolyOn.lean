import Verif.LibPoly
/-!
The voices of `[poly]`: a note is played.
-/
set_option linter.unusedSimpArgs false
set_option maxRecDepth 10000
set_option maxHeartbeats 1000000
namespace Verif.Lib.Poly
open Verif.Control (Dest Kind Cast Patch Act Sys Env Big)
variable {a2 : ℚ} {n : Nat} {c : Ctx} {s s' : St} {l : Calls}

theorem Frame.tabs {vs : List Voice} {k : List Nat} {s s1 : St} (h : Frame k s s1) (ht : Tabs vs s) : Tabs vs s1 :=
  ⟨by rw [h.tab]; exact ht.1, by rw [h.tab]; exact ht.2, by rw [h.tab]; exact ht.3⟩

structure Fixed (n : Nat) (steal : ℚ) (s : St) : Prop where
  top : s.mem 18 = [.float 65535]
  one1 : s.mem 91 = [.float 1]
  one2 : s.mem 297 = [.float 1]
  one3 : s.mem 415 = [.float 1]
  one4 : s.mem 500 = [.float 1]
  n1 : s.mem 109 = [.float n]
  n2 : s.mem 315 = [.float n]
  n3 : s.mem 433 = [.float n]
  n4 : s.mem 518 = [.float n]
  used1 : s.mem 129 = [.sym "1-used"]
  used2 : s.mem 348 = [.sym "1-used"]
  used3 : s.mem 664 = [.sym "1-used"]
  ids1 : s.mem 151 = [.sym "1-ids"]
  ids2 : s.mem 686 = [.sym "1-ids"]
  pit1 : s.mem 187 = [.sym "1-pitches"]
  pit2 : s.mem 381 = [.sym "1-pitches"]
  pit3 : s.mem 720 = [.sym "1-pitches"]
  max1 : s.mem 197 = [.float 65535]
  max2 : s.mem 797 = [.float 65535]
  steal : s.mem 629 = [.float steal]

def Has (l : List ℚ) : Bool := decide (0 < l.length)
theorem step_index0 {o t : Nat} {m : Msg} (hi : Has (s.tab t) = true) : step c (.tabwrite t) o 1 (.float 0 :: m) s = (s.set o [.float 0], none) := by
  simpa using step_index (c := c) (o := o) (m := m) (of_decide_eq_true hi)
@[simp] theorem ev_gt {a b : ℚ} : Op.eval .gt a b = tf (b < a) := rfl
@[simp] theorem ev_ge {a b : ℚ} : Op.eval .ge a b = tf (b ≤ a) := rfl

/-- of the cells that change from event to event -/
structure Vary (steal : ℚ) (s : St) : Prop where
  z : ∃ z : ℚ, s.mem 812 = [.float z]
  off : steal = 0 → s.mem 595 = [.float 0]

section
attribute [-lib_poly] n487_0 o598_0
theorem on_start {vs : List Voice} {steal p : ℚ} (h : Fixed n steal s) (hv : Vary steal s) (ht : Tabs vs s) (hn : 0 < n) (hl : vs.length = n) :
    ∃ s1, (∀ s', Ends (sys n a2 c) [((487, 0), [.float (0 : Nat)]), ((598, 0), [.float p])] s1 s' → Ends (sys n a2 c) [((553, 0), [.float p])] s s') ∧
      ScanMem vs steal ⟨none, none⟩ s1 ∧ Frame keep s s1 ∧ s1.mem 485 = [.float n] := by
  obtain ⟨h1,h2,h3,h4,h5,h6,h7,h8,h9,h10,h11,h12,h13,h14,h15,h16,h17,h18,h19,h20⟩ := h
  obtain ⟨⟨z, hz⟩, ho⟩ := hv
  have z0 : Has (s.tab 0) = true := decide_eq_true (by simp [ht.pitches]; omega)
  have z1 : Has (s.tab 1) = true := decide_eq_true (by simp [ht.used]; omega)
  have z2 : Has (s.tab 2) = true := decide_eq_true (by simp [ht.ids]; omega)
  have n1 : (1:ℚ) ≤ n := by exact_mod_cast hn
  have n0 : (0:ℚ) < n := by linarith
  by_cases hs : steal = 0
  · have ho := ho hs
    refine ⟨?s1, ?g1, ?_⟩
    case g1 =>
      intro s' h
      simp [lib_step, lib_poly, h1,h2,h3,h4,h5,h6,h7,h8,h9,h10,h11,h12,h13,h14,h15,h16,h17,h18,h19,h20, tf, n1, n0, hs, key, List.findIdx_cons, hz, step_index0, z0, z1, z2]
      simpa [lib_step] using h
    refine ⟨⟨?_,?_,?_,?_,?_,?_,?_,?_,?_,?_,?_,?_,?_,?_,?_,?_,?_,?_⟩, ⟨?_,?_,?_,?_,?_⟩, ?_⟩ <;> simp [lib_step, low, ix, fl, keep, *]
  · refine ⟨?s2, ?g2, ?_⟩
    case g2 =>
      intro s' h
      simp [lib_step, lib_poly, h1,h2,h3,h4,h5,h6,h7,h8,h9,h10,h11,h12,h13,h14,h15,h16,h17,h18,h19,h20, tf, n1, n0, hs, key, List.findIdx_cons, hz, step_index0, z0, z1, z2]
      simpa [lib_step] using h
    refine ⟨⟨?_,?_,?_,?_,?_,?_,?_,?_,?_,?_,?_,?_,?_,?_,?_,?_,?_,?_⟩, ⟨?_,?_,?_,?_,?_⟩, ?_⟩ <;> simp [lib_step, low, ix, fl, keep, *]
end

section
variable {t : Nat} {l : List ℚ}
@[lib_step] theorem setTab_mem : (s.setTab t l).mem = s.mem := rfl
@[lib_step] theorem setTab_now : (s.setTab t l).now = s.now := rfl
@[lib_step] theorem setTab_q : (s.setTab t l).q = s.q := rfl
@[lib_step] theorem setTab_log : (s.setTab t l).log = s.log := rfl
@[lib_step] theorem setTab_tab {u : Nat} : (s.setTab t l).tab u = if u = t then l else s.tab u := rfl
end

theorem mod_eval (k : Nat) : Op.eval .mod k 65535 = (k % 65535 : Nat) := by
  simp only [Op.eval]
  have e : trunc (k : ℚ) = (k : Int) := by simp [trunc]
  have e' : trunc 65535 = (65535 : Int) := by
    have : trunc ((65535 : Nat) : ℚ) = ((65535 : Nat) : Int) := by simp [trunc]
    exact_mod_cast this
  have e2 : Int.tmod (k : Int) 65535 = ((k % 65535 : Nat) : Int) := by
    rw [Int.tmod_eq_emod_of_nonneg (by omega)]; omega
  rw [e, e', e2]
  have : ¬ (((k % 65535 : Nat) : ℚ) < 0) := by
    have : (0:ℚ) ≤ ((k % 65535 : Nat) : ℚ) := Nat.cast_nonneg _
    linarith
  simp only [Int.cast_natCast, this, if_false]
  norm_num

/-- a voice, on the outlets: velocity, pitch, number of the voice -/
def say (v p : ℚ) (i : Nat) : List (Nat × Msg) := [(2, [.float v]), (1, [.float p]), (0, [.float ((i : ℚ) + 1)])]

/-- the cells that no note changes -/
def keep' : List Nat := [18, 42, 53, 59, 91, 297, 415, 500, 109, 315, 433, 518, 129, 151, 187, 348, 381, 664, 686, 720, 197, 797, 629]

/-- after a note: the voices, the counter, what has come out -/
structure Done (steal : ℚ) (vs : List Voice) (k : Nat) (out : List (Nat × Msg)) (s s1 : St) : Prop where
  tabs : Tabs vs s1
  count : s1.mem 14 = [.float k]
  log : s1.log = s.log ++ out.map fun y => (s.now, y)
  q : s1.q = s.q
  now : s1.now = s.now
  mem : ∀ i ∈ keep', s1.mem i = s.mem i
  vel1 : ∀ w v : ℚ, s.mem 598 = [.float w, .float v] → ∃ w : ℚ, s1.mem 598 = [.float w, .float v]
  vel2 : ∀ w v : ℚ, s.mem 270 = [.float w, .float v] → ∃ w : ℚ, s1.mem 270 = [.float w, .float v]
  vary : Vary steal s1

theorem place_free {vs : List Voice} {steal p v w : ℚ} {x : Scan} {k j : Nat} (h : Fixed n steal s) (ht : Tabs vs s) (hm : ScanMem vs steal x s) (hk : s.mem 14 = [.float k]) (hp : s.mem 598 = [.float w, .float v])
    (hx : x.off = some j) :
    ∃ s', Ends (sys n a2 c) [((598, 0), [.float p])] s s' ∧ Done steal (vs.set j ⟨p, true, k % 65535⟩) (k % 65535 + 1) (say v p j) s s' := by
  have h1 := h.top
  obtain ⟨m1,m2,m3,m4,m5,m6,m7,m8,m9,m10,m11,m12,m13,m14,m15,m16,m17,m18⟩ := hm
  refine ⟨?s1, ?g1, ?_⟩
  case g1 =>
    simp [lib_step, lib_poly, h1, tf, key, List.findIdx_cons, m8, m9, m10, m11, m14, m16, hx, fl, ix, hp, hk, mod_eval, overlay]
    rfl
  refine ⟨⟨?_,?_,?_⟩,?_,?_,?_,?_,?_,?_,?_,?_⟩
  · simp [lib_step, ht.pitches, List.map_set]
  · simp [lib_step, ht.used, List.map_set]
  · simp [lib_step, ht.ids, List.map_set]
  · simp [lib_step]
  · simp [lib_step, say]
  · simp [lib_step]
  · simp [lib_step]
  · simp [lib_step, keep']
  · intro a b e
    rw [hp] at e
    simp only [List.cons.injEq, Atom.float.injEq] at e
    exact ⟨p, by simp [lib_step, e.2]⟩
  · intro a b e
    exact ⟨a, by simp [lib_step, e]⟩
  · exact ⟨⟨_, by simp [lib_step, m13]; rfl⟩, fun e => by simp [lib_step, m16, e]⟩

theorem place_steal {vs : List Voice} {steal p v w : ℚ} {x : Scan} {k j : Nat} {o : Voice} (h : Fixed n steal s) (hN : Names c) (ht : Tabs vs s) (hm : ScanMem vs steal x s) (hk : s.mem 14 = [.float k]) (hp : s.mem 598 = [.float w, .float v])
    (hx : x.off = none) (hy : x.on = some j) (hs : steal ≠ 0) (hv : vs[j]? = some o) :
    ∃ s', Ends (sys n a2 c) [((598, 0), [.float p])] s s' ∧ Done steal (vs.set j ⟨p, true, k % 65535⟩) (k % 65535 + 1) (say 0 o.pitch j ++ say v p j) s s' := by
  have h1 := h.top
  have hlen : j < vs.length := (List.getElem?_eq_some_iff.mp hv).1
  have hi : (j : ℚ) ≤ vs.length - 1 := by
    have : ((j + 1 : Nat) : ℚ) ≤ vs.length := by exact_mod_cast hlen
    push_cast at this; linarith
  have t0 : cell (s.tab 0) j = o.pitch := by simp [cell, ht.pitches, hv]
  have l0 : (s.tab 0).length = vs.length := by simp [ht.pitches]
  have hname := h.pit3
  obtain ⟨m1,m2,m3,m4,m5,m6,m7,m8,m9,m10,m11,m12,m13,m14,m15,m16,m17,m18⟩ := hm
  obtain ⟨n1, n2, n3⟩ := hN
  refine ⟨?s1, ?g1, ?_⟩
  case g1 =>
    simp [lib_step, lib_poly, h1, tf, key, List.findIdx_cons, m3, m4, m5, m6, m7, m14, m16, hx, hy, hs, fl, ix, hp, hk, mod_eval, overlay, step_len n1, hname, step_read, l0, hi, hlen, t0]
    rfl
  refine ⟨⟨?_,?_,?_⟩,?_,?_,?_,?_,?_,?_,?_,?_⟩
  · simp [lib_step, ht.pitches, List.map_set]
  · simp [lib_step, ht.used, List.map_set]
  · simp [lib_step, ht.ids, List.map_set]
  · simp [lib_step]
  · simp [lib_step, say]
  · simp [lib_step]
  · simp [lib_step]
  · simp [lib_step, keep']
  · intro a b e
    rw [hp] at e
    simp only [List.cons.injEq, Atom.float.injEq] at e
    exact ⟨p, by simp [lib_step, e.2]⟩
  · intro a b e
    exact ⟨a, by simp [lib_step, e]⟩
  · exact ⟨⟨_, by simp [lib_step, m13]; rfl⟩, fun e => by simp [lib_step, m16, e]⟩

theorem place_none {vs : List Voice} {steal p v w : ℚ} {x : Scan} {k : Nat} (ht : Tabs vs s) (hm : ScanMem vs steal x s) (hk : s.mem 14 = [.float k]) (hp : s.mem 598 = [.float w, .float v])
    (hx : x.off = none) (hy : x.on = none ∨ steal = 0) :
    ∃ s', Ends (sys n a2 c) [((598, 0), [.float p])] s s' ∧ Done steal vs k [] s s' := by
  obtain ⟨m1,m2,m3,m4,m5,m6,m7,m8,m9,m10,m11,m12,m13,m14,m15,m16,m17,m18⟩ := hm
  have m16 : s.mem 595 = [.float 0] := by
    rw [m16]; rcases hy with h | h <;> simp [h, fl]
  refine ⟨?s1, ?g1, ?_⟩
  case g1 =>
    simp [lib_step, lib_poly, tf, key, List.findIdx_cons, m14, m16, hx, fl, ix, hp, hk, overlay]
    rfl
  refine ⟨⟨?_,?_,?_⟩,?_,?_,?_,?_,?_,?_,?_,?_⟩
  · simp [lib_step, ht.pitches, List.map_set]
  · simp [lib_step, ht.used, List.map_set]
  · simp [lib_step, ht.ids, List.map_set]
  · simp [lib_step, hk]
  · simp [lib_step, say]
  · simp [lib_step]
  · simp [lib_step]
  · simp [lib_step, keep']
  · intro a b e
    rw [hp] at e
    simp only [List.cons.injEq, Atom.float.injEq] at e
    exact ⟨p, by simp [lib_step, e.2]⟩
  · intro a b e
    exact ⟨a, by simp [lib_step, e]⟩
  · exact ⟨⟨_, by simp [lib_step, m13]; rfl⟩, fun e => by simp [lib_step, m16, e]⟩

/-- the cells of `Fixed` -/
theorem Fixed.keep {steal : ℚ} {s1 : St} (h : Fixed n steal s) (e : ∀ i ∈ keep', s1.mem i = s.mem i) : Fixed n steal s1 := by
  obtain ⟨h1,h2,h3,h4,h5,h6,h7,h8,h9,h10,h11,h12,h13,h14,h15,h16,h17,h18,h19,h20⟩ := h
  simp only [keep', List.mem_cons, List.not_mem_nil, or_false, forall_eq_or_imp, forall_eq] at e
  simp only [← e] at *
  exact ⟨h1,h2,h3,h4,h5,h6,h7,h8,h9,h10,h11,h12,h13,h14,h15,h16,h17,h18,h19,h20⟩

theorem keep_sub : ∀ i ∈ keep', i ∈ keep := by decide

theorem Done.frame {steal : ℚ} {vs : List Voice} {k : Nat} {out : List (Nat × Msg)} {s s1 s2 : St} (h1 : Frame Poly.keep s s1) (h2 : Done steal vs k out s1 s2) :
    Done steal vs k out s s2 where
  tabs := h2.tabs
  count := h2.count
  log := by rw [h2.log, h1.log, h1.now]
  q := by rw [h2.q, h1.q]
  now := by rw [h2.now, h1.now]
  mem i hi := by rw [h2.mem i hi, h1.mem i (keep_sub i hi)]
  vel1 w v h := h2.vel1 w v (by rw [h1.mem _ (by decide), h])
  vel2 w v h := h2.vel2 w v (by rw [h1.mem _ (by decide), h])
  vary := h2.vary

/-- a note on, with the voices found -/
def noteOn (steal : Bool) (vs : List Voice) (k : Nat) (p v : ℚ) (x : Scan) : List Voice × Nat × List (Nat × Msg) :=
  match x.off, x.on, steal with
  | some j, _, _ => (vs.set j ⟨p, true, k % 65535⟩, k % 65535 + 1, say v p j)
  | none, some j, true => (vs.set j ⟨p, true, k % 65535⟩, k % 65535 + 1, say 0 ((vs[j]?.map (·.pitch)).getD 0) j ++ say v p j)
  | _, _, _ => (vs, k, [])

theorem scan_on (vs : List Voice) (r : List Voice) : ∀ (i : Nat) (x : Scan), vs.drop i = r → (∀ j ∈ x.on, j < vs.length) → ∀ j ∈ (scan vs r i x).on, j < vs.length := by
  induction r with
  | nil => intro i x _ h; exact h
  | cons v r ih =>
    intro i x hr h
    refine ih (i + 1) _ (by have := congrArg List.tail hr; simpa using this) ?_
    intro j hj
    simp only [Scan.next] at hj
    split at hj
    · cases hj
      by_contra hn
      rw [List.drop_eq_nil_of_le (by omega)] at hr
      cases hr
    · exact h j hj

theorem on_run {vs : List Voice} {steal p v w : ℚ} {k : Nat} (h : Fixed n steal s) (hV : Vary steal s) (hN : Names c) (ht : Tabs vs s) (hk : s.mem 14 = [.float k]) (hp : s.mem 598 = [.float w, .float v])
    (hn : 0 < n) (hl : vs.length = n) : ∃ s', Ends (sys n a2 c) [((553, 0), [.float p])] s s' ∧
      let r := noteOn (steal ≠ 0) vs k p v (scan vs vs 0 ⟨none, none⟩)
      Done steal r.1 r.2.1 r.2.2 s s' := by
  obtain ⟨s1, e1, m1, f1, q1⟩ := on_start (a2 := a2) (p := p) h hV ht hn hl
  obtain ⟨s2, e2, m2, f2⟩ := loop_run (a2 := a2) hN hl vs 0 ⟨none, none⟩ s1 rfl (by omega) q1 (f1.tabs ht) m1
  have f := f1.trans f2
  have h' : Fixed n steal s2 := h.keep fun i hi => f.mem i (keep_sub i hi)
  have hk' : s2.mem 14 = [.float k] := by rw [f.mem _ (by decide), hk]
  have hp' : s2.mem 598 = [.float w, .float v] := by rw [f.mem _ (by decide), hp]
  have ht' := f.tabs ht
  have hon := scan_on vs vs 0 ⟨none, none⟩ rfl (by simp)
  generalize scan vs vs 0 ⟨none, none⟩ = x at m2 hon
  have : ∃ s', Ends (sys n a2 c) [((598, 0), [.float p])] s2 s' ∧
      let r := noteOn (steal ≠ 0) vs k p v x
      Done steal r.1 r.2.1 r.2.2 s2 s' := by
    cases hx : x.off with
    | some j => simpa [noteOn, hx] using place_free h' ht' m2 hk' hp' hx
    | none =>
      by_cases hs : steal = 0
      · simpa [noteOn, hx, hs] using place_none (n := n) (c := c) (a2 := a2) (p := p) ht' m2 hk' hp' hx (.inr hs)
      cases hy : x.on with
      | none => simpa [noteOn, hx, hs, hy] using place_none (n := n) (c := c) (a2 := a2) (p := p) ht' m2 hk' hp' hx (.inl hy)
      | some j =>
        have hj := hon j hy
        have := place_steal (a2 := a2) (p := p) h' hN ht' m2 hk' hp' hx hy hs (List.getElem?_eq_getElem hj)
        simpa [noteOn, hx, hs, hy, hj] using this
  obtain ⟨s3, e3, d3⟩ := this
  exact ⟨s3, e1 _ (ends_trans e2 e3), Done.frame f d3⟩
end Verif.Lib.Poly
