import Verif.LibPolyOff
/-!
The voices of `[poly]`: `stop` and `clear`.
-/
set_option linter.unusedSimpArgs false
set_option maxRecDepth 10000
set_option maxHeartbeats 1000000
namespace Verif.Lib.Poly
open Verif.Control (Dest Kind Cast Patch Act Sys Env Big)
variable {a2 : ℚ} {n : Nat} {c : Ctx} {s s' : St} {l : Calls}
@[simp] theorem ev_neq {a b : ℚ} : Op.eval .neq a b = tf (a ≠ b) := rfl
section
attribute [-lib_poly] n354 n289 n463 n407
theorem loop_stop {i : Nat} (hn : s.mem 282 = [.float n]) : Ends (sys n a2 c) (((284, 0), [.float i]) :: l) s s' ↔
    if i < n then Ends (sys n a2 c) (((354, 0), [.float i]) :: ((289, 0), [.float i]) :: l) ((s.set 285 [.float i]).set 281 [.float 1]) s'
    else Ends (sys n a2 c) l ((s.set 285 [.float i]).set 281 [.float 0]) s' := by
  by_cases h : i < n <;> simp [lib_step, lib_poly, hn, h, tf]
theorem loop_clear {i : Nat} (hn : s.mem 400 = [.float n]) : Ends (sys n a2 c) (((402, 0), [.float i]) :: l) s s' ↔
    if i < n then Ends (sys n a2 c) (((463, 0), [.float i]) :: ((407, 0), [.float i]) :: l) ((s.set 403 [.float i]).set 399 [.float 1]) s'
    else Ends (sys n a2 c) l ((s.set 403 [.float i]).set 399 [.float 0]) s' := by
  by_cases h : i < n <;> simp [lib_step, lib_poly, hn, h, tf]
end

theorem Done.refl {steal : ℚ} {vs : List Voice} {k : Nat} (ht : Tabs vs s) (hk : s.mem 14 = [.float k]) (hV : Vary steal s) : Done steal vs k [] s s :=
  ⟨ht, hk, by simp, rfl, rfl, fun _ _ => rfl, fun w v h => ⟨w, h⟩, fun w v h => ⟨w, h⟩, hV⟩

theorem Done.trans {steal : ℚ} {vs vs' : List Voice} {k k' : Nat} {o o' : List (Nat × Msg)} {s s1 s2 : St} (h1 : Done steal vs k o s s1) (h2 : Done steal vs' k' o' s1 s2) :
    Done steal vs' k' (o ++ o') s s2 where
  tabs := h2.tabs
  count := h2.count
  log := by rw [h2.log, h1.log, h1.now]; simp
  q := by rw [h2.q, h1.q]
  now := by rw [h2.now, h1.now]
  mem i hi := by rw [h2.mem i hi, h1.mem i hi]
  vel1 w v h := by obtain ⟨w', h'⟩ := h1.vel1 w v h; exact h2.vel1 w' v h'
  vel2 w v h := by obtain ⟨w', h'⟩ := h1.vel2 w v h; exact h2.vel2 w' v h'
  vary := h2.vary

theorem Done.set {steal : ℚ} {vs : List Voice} {k i : Nat} {o : List (Nat × Msg)} {s s1 : St} {m : List Atom} (h : Done steal vs k o s s1) (hi : i ∉ 14 :: 598 :: 270 :: 595 :: 812 :: keep') :
    Done steal vs k o s (s1.set i m) := by
  have e : ∀ j ∈ 14 :: 598 :: 270 :: 595 :: 812 :: keep', (s1.set i m).mem j = s1.mem j := fun j hj => by
    rw [set_mem, if_neg]; rintro rfl; exact hi hj
  refine ⟨⟨h.tabs.1, h.tabs.2, h.tabs.3⟩, by rw [e _ (by decide)]; exact h.count, h.log, h.q, h.now, fun j hj => by rw [e _ (by simp [hj])]; exact h.mem j hj, ?_, ?_, ?_⟩
  · rw [e _ (by decide)]; exact h.vel1
  · rw [e _ (by decide)]; exact h.vel2
  · obtain ⟨⟨z, h1⟩, h2⟩ := h.vary
    exact ⟨⟨z, by rw [e _ (by decide), h1]⟩, fun h => by rw [e _ (by decide), h2 h]⟩

/-- silent -/
def quiet (v : Voice) : Voice := { v with used := false }

theorem body_stop {vs : List Voice} {steal : ℚ} {i k : Nat} {v : Voice} (hF : Fixed n steal s) (hV : Vary steal s) (ht : Tabs vs s) (hN : Names c) (hv : vs[i]? = some v) (hk : s.mem 14 = [.float k]) :
    ∃ s', Ends (sys n a2 c) [((354, 0), [.float i])] s s' ∧ Done steal (vs.set i (quiet v)) (if v.used then k % 65535 + 1 else k) (if v.used then say 0 v.pitch i else []) s s' ∧ s'.mem 282 = s.mem 282 := by
  have h1 := hF.top
  have hlen : i < vs.length := (List.getElem?_eq_some_iff.mp hv).1
  have hi : (i : ℚ) ≤ vs.length - 1 := by
    have : ((i + 1 : Nat) : ℚ) ≤ vs.length := by exact_mod_cast hlen
    push_cast at this; linarith
  have t0 : cell (s.tab 0) i = v.pitch := by simp [cell, ht.pitches, hv]
  have t1 : cell (s.tab 1) i = if v.used then 1 else 0 := by simp [cell, ht.used, hv]
  have l0 : (s.tab 0).length = vs.length := by simp [ht.pitches]
  have l1 : (s.tab 1).length = vs.length := by simp [ht.used]
  have l2 : (s.tab 2).length = vs.length := by simp [ht.ids]
  obtain ⟨n1, n2, n3⟩ := hN
  obtain ⟨⟨z, hz⟩, h0⟩ := hV
  have g1 := hF.used2
  have g2 := hF.pit2
  cases hu : v.used with
  | true =>
    simp only [hu] at t1
    have e0 : (vs.map fun v => v.pitch).set i v.pitch = vs.map fun v => v.pitch := by
      apply List.ext_getElem?
      intro j
      rw [List.getElem?_set]
      split
      · next e => subst e; rw [List.getElem?_map, hv, List.length_map, if_pos hlen]; rfl
      · rfl
    have e2 : (vs.map fun v => (v.id : ℚ)).set i v.id = vs.map fun v => (v.id : ℚ) := by
      apply List.ext_getElem?
      intro j
      rw [List.getElem?_set]
      split
      · next e => subst e; rw [List.getElem?_map, hv, List.length_map, if_pos hlen]; rfl
      · rfl
    refine ⟨?s1, ?q1, ?_, ?_⟩
    case q1 =>
      simp [lib_step, lib_poly, tf, key, List.findIdx_cons, step_len n1, step_len n2, step_len n3, hi, step_read, step_index, hlen, t0, t1, l0, l1, l2, g1, g2, hk, mod_eval, h1]
      rfl
    refine ⟨⟨?_,?_,?_⟩,?_,?_,?_,?_,?_,?_,?_,?_⟩
    · simp [lib_step, ht.pitches, List.map_set, e0, quiet]
    · simp [lib_step, ht.used, List.map_set, quiet]
    · simp [lib_step, ht.ids, List.map_set, e2, quiet]
    · simp [lib_step]
    · simp [lib_step, say]
    · simp [lib_step]
    · simp [lib_step]
    · simp [lib_step, keep']
    · intro a b e
      exact ⟨a, by simp [lib_step, e]⟩
    · intro a b e
      exact ⟨a, by simp [lib_step, e]⟩
    · exact ⟨⟨_, by simp [lib_step, hz]; rfl⟩, fun e => by simp [lib_step, h0 e]⟩
    · simp [lib_step]
  | false =>
    simp only [hu] at t1
    have e : vs.set i (quiet v) = vs := by
      have : quiet v = v := by cases v; simp only at hu; subst hu; rfl
      rw [this]
      apply List.ext_getElem?
      intro j
      rw [List.getElem?_set]
      split
      · next e => subst e; exact hv.symm
      · rfl
    rw [e]
    refine ⟨?s2, ?q2, ?_, ?_⟩
    case q2 =>
      simp [lib_step, lib_poly, tf, key, List.findIdx_cons, step_len n1, step_len n2, step_len n3, hi, step_read, step_index, hlen, t0, t1, l0, l1, l2, g1, g2, hk, mod_eval, h1]
      rfl
    · exact ((Done.refl ht hk ⟨⟨z, hz⟩, h0⟩).set (by decide)).set (by decide)
    · simp [lib_step]

/-- all voices silent, what comes out -/
def stopAll : List Voice → Nat → Nat → Nat × List (Nat × Msg)
  | [], _, k => (k, [])
  | v :: r, i, k => if v.used then ((stopAll r (i + 1) (k % 65535 + 1)).1, say 0 v.pitch i ++ (stopAll r (i + 1) (k % 65535 + 1)).2) else stopAll r (i + 1) k

theorem loop_stop_run {steal : ℚ} (hN : Names c) (r : List Voice) : ∀ (pre : List Voice) (k : Nat) (s : St), (pre ++ r).length = n →
    Fixed n steal s → Vary steal s → Tabs (pre ++ r) s → s.mem 14 = [.float k] → s.mem 282 = [.float n] →
    ∃ s1, Ends (sys n a2 c) [((284, 0), [.float pre.length])] s s1 ∧ Done steal (pre ++ r.map quiet) (stopAll r pre.length k).1 (stopAll r pre.length k).2 s s1 := by
  induction r with
  | nil =>
    intro pre k s hl hF hV ht hk h2
    have : ¬ pre.length < n := by simp at hl; omega
    refine ⟨(s.set 285 [.float pre.length]).set 281 [.float 0], ?_, ?_⟩
    · rw [loop_stop h2, if_neg this, ends_nil]
    · exact ((Done.refl ht hk hV).set (by decide)).set (by decide)
  | cons v r ih =>
    intro pre k s hl hF hV ht hk h2
    have hlt : pre.length < n := by simp at hl; omega
    have d0 : Done steal (pre ++ v :: r) k [] s ((s.set 285 [.float pre.length]).set 281 [.float 1]) := ((Done.refl ht hk hV).set (by decide)).set (by decide)
    obtain ⟨s1, e1, d1, q1⟩ := body_stop (n := n) (a2 := a2) (i := pre.length) (v := v) (hF.keep d0.mem) d0.vary d0.tabs hN (by simp) d0.count
    have d1 := d0.trans d1
    have hset : (pre ++ v :: r).set pre.length (quiet v) = (pre ++ [quiet v]) ++ r := by simp
    rw [hset] at d1
    obtain ⟨s2, e2, d2⟩ := ih (pre ++ [quiet v]) _ s1 (by simpa using hl) (hF.keep d1.mem) d1.vary d1.tabs d1.count (by rw [q1]; simpa [lib_step] using h2)
    have d2 := d1.trans d2
    refine ⟨s2, ?_, ?_⟩
    · rw [loop_stop h2, if_pos hlt]
      refine ends_trans e1 ?_
      simpa [lib_step, n289, o289_0] using e2
    · cases hu : v.used <;> simpa [stopAll, hu] using d2

section
attribute [-lib_poly] n284_0
theorem stop_run {vs : List Voice} {steal : ℚ} (h : Fixed n steal s) (hV : Vary steal s) (hN : Names c) (ht : Tabs vs s) (hn : 0 < n) (hl : vs.length = n) :
    ∃ s', Ends (sys n a2 c) [((328, 0), [.bang])] s s' ∧ Done steal (vs.map quiet) (stopAll vs 0 1).1 (stopAll vs 0 1).2 s s' := by
  have g1 := h.top
  have g2 := h.n2
  have g3 := h.one2
  have n1 : (1:ℚ) ≤ n := by exact_mod_cast hn
  have n0 : (0:ℚ) < n := by linarith
  have m0 : Op.eval .mod 0 65535 = 0 := by simpa using mod_eval 0
  have : ∃ s1, (∀ s', Ends (sys n a2 c) [((284, 0), [.float (0 : Nat)])] s1 s' → Ends (sys n a2 c) [((328, 0), [.bang])] s s') ∧ Done steal vs 1 [] s s1 ∧ s1.mem 282 = [.float n] := by
    refine ⟨?s1, ?q1, ?_, ?_⟩
    case q1 =>
      intro s' h
      simp [lib_step, lib_poly, g1, g2, g3, tf, n1, n0, key, List.findIdx_cons, m0]
      simpa [lib_step] using h
    · refine Done.set (Done.set (Done.set (Done.set (Done.set (Done.set (Done.set ?_ (by decide)) (by decide)) (by decide)) (by decide)) (by decide)) (by decide)) (by decide)
      obtain ⟨⟨z, hz⟩, h0⟩ := hV
      refine ⟨⟨ht.1, ht.2, ht.3⟩, by simp [lib_step], by simp [lib_step], rfl, rfl, by simp [lib_step, keep'], fun w v h => ⟨w, by simp [lib_step, h]⟩, fun w v h => ⟨w, by simp [lib_step, h]⟩, ⟨⟨z, by simp [lib_step, hz]⟩, fun e => by simp [lib_step, h0 e]⟩⟩
    · simp [lib_step]
  obtain ⟨s1, e1, d1, q1⟩ := this
  obtain ⟨s2, e2, d2⟩ := loop_stop_run (a2 := a2) hN vs [] 1 s1 (by simpa using hl) (h.keep d1.mem) d1.vary d1.tabs (by simpa using d1.count) q1
  exact ⟨s2, e1 _ e2, by simpa using d1.trans d2⟩
end

/-- forgotten -/
def blank : Voice := ⟨0, false, 0⟩

theorem body_clear {vs : List Voice} {steal : ℚ} {i k : Nat} (hV : Vary steal s) (ht : Tabs vs s) (hlen : i < vs.length) (hk : s.mem 14 = [.float k]) :
    ∃ s', Ends (sys n a2 c) [((463, 0), [.float i])] s s' ∧ Done steal (vs.set i blank) k [] s s' ∧ s'.mem 400 = s.mem 400 := by
  have l0 : (s.tab 0).length = vs.length := by simp [ht.pitches]
  have l1 : (s.tab 1).length = vs.length := by simp [ht.used]
  have l2 : (s.tab 2).length = vs.length := by simp [ht.ids]
  obtain ⟨⟨z, hz⟩, h0⟩ := hV
  refine ⟨?s1, ?q1, ?_, ?_⟩
  case q1 =>
    simp [lib_step, lib_poly, tf, key, List.findIdx_cons, step_read, step_index, hlen, l0, l1, l2, hk]
    rfl
  · refine ⟨⟨?_,?_,?_⟩,?_,?_,?_,?_,?_,?_,?_,?_⟩
    · simp [lib_step, ht.pitches, List.map_set, blank]
    · simp [lib_step, ht.used, List.map_set, blank]
    · simp [lib_step, ht.ids, List.map_set, blank]
    · simp [lib_step, hk]
    · simp [lib_step]
    · simp [lib_step]
    · simp [lib_step]
    · simp [lib_step, keep']
    · intro a b e
      exact ⟨a, by simp [lib_step, e]⟩
    · intro a b e
      exact ⟨a, by simp [lib_step, e]⟩
    · exact ⟨⟨_, by simp [lib_step, hz]; rfl⟩, fun e => by simp [lib_step, h0 e]⟩
  · simp [lib_step]

theorem loop_clear_run {steal : ℚ} (r : List Voice) : ∀ (pre : List Voice) (k : Nat) (s : St), (pre ++ r).length = n →
    Vary steal s → Tabs (pre ++ r) s → s.mem 14 = [.float k] → s.mem 400 = [.float n] →
    ∃ s1, Ends (sys n a2 c) [((402, 0), [.float pre.length])] s s1 ∧ Done steal (pre ++ r.map fun _ => blank) k [] s s1 := by
  induction r with
  | nil =>
    intro pre k s hl hV ht hk h2
    have : ¬ pre.length < n := by simp at hl; omega
    refine ⟨(s.set 403 [.float pre.length]).set 399 [.float 0], ?_, ?_⟩
    · rw [loop_clear h2, if_neg this, ends_nil]
    · exact ((Done.refl ht hk hV).set (by decide)).set (by decide)
  | cons v r ih =>
    intro pre k s hl hV ht hk h2
    have hlt : pre.length < n := by simp at hl; omega
    have d0 : Done steal (pre ++ v :: r) k [] s ((s.set 403 [.float pre.length]).set 399 [.float 1]) := ((Done.refl ht hk hV).set (by decide)).set (by decide)
    obtain ⟨s1, e1, d1, q1⟩ := body_clear (n := n) (a2 := a2) (c := c) (i := pre.length) d0.vary d0.tabs (by simp) d0.count
    have d1 := d0.trans d1
    have hset : (pre ++ v :: r).set pre.length blank = (pre ++ [blank]) ++ r := by simp
    rw [hset] at d1
    obtain ⟨s2, e2, d2⟩ := ih (pre ++ [blank]) _ s1 (by simpa using hl) d1.vary d1.tabs d1.count (by rw [q1]; simpa [lib_step] using h2)
    have d2 := d1.trans d2
    refine ⟨s2, ?_, ?_⟩
    · rw [loop_clear h2, if_pos hlt]
      refine ends_trans e1 ?_
      simpa [lib_step, n407, o407_0] using e2
    · simpa using d2

section
attribute [-lib_poly] n402_0
theorem clear_run {vs : List Voice} {steal : ℚ} (h : Fixed n steal s) (hV : Vary steal s) (ht : Tabs vs s) (hn : 0 < n) (hl : vs.length = n) :
    ∃ s', Ends (sys n a2 c) [((459, 0), [.bang])] s s' ∧ Done steal (vs.map fun _ => blank) 1 [] s s' := by
  have g1 := h.top
  have g2 := h.n3
  have g3 := h.one3
  have n1 : (1:ℚ) ≤ n := by exact_mod_cast hn
  have n0 : (0:ℚ) < n := by linarith
  have m0 : Op.eval .mod 0 65535 = 0 := by simpa using mod_eval 0
  have : ∃ s1, (∀ s', Ends (sys n a2 c) [((402, 0), [.float (0 : Nat)])] s1 s' → Ends (sys n a2 c) [((459, 0), [.bang])] s s') ∧ Done steal vs 1 [] s s1 ∧ s1.mem 400 = [.float n] := by
    refine ⟨?s1, ?q1, ?_, ?_⟩
    case q1 =>
      intro s' h
      simp [lib_step, lib_poly, g1, g2, g3, tf, n1, n0, key, List.findIdx_cons, m0]
      simpa [lib_step] using h
    · refine Done.set (Done.set (Done.set (Done.set (Done.set (Done.set (Done.set ?_ (by decide)) (by decide)) (by decide)) (by decide)) (by decide)) (by decide)) (by decide)
      obtain ⟨⟨z, hz⟩, h0⟩ := hV
      refine ⟨⟨ht.1, ht.2, ht.3⟩, by simp [lib_step], by simp [lib_step], rfl, rfl, by simp [lib_step, keep'], fun w v h => ⟨w, by simp [lib_step, h]⟩, fun w v h => ⟨w, by simp [lib_step, h]⟩, ⟨⟨z, by simp [lib_step, hz]⟩, fun e => by simp [lib_step, h0 e]⟩⟩
    · simp [lib_step]
  obtain ⟨s1, e1, d1, q1⟩ := this
  obtain ⟨s2, e2, d2⟩ := loop_clear_run (a2 := a2) (c := c) vs [] 1 s1 (by simpa using hl) d1.vary d1.tabs (by simpa using d1.count) q1
  exact ⟨s2, e1 _ e2, by simpa using d1.trans d2⟩
end
end Verif.Lib.Poly
