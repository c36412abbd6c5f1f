import Verif.LibPolyOn
/-!
The voices of `[poly]`: a note is ended.
-/
set_option linter.unusedSimpArgs false
set_option maxRecDepth 10000
set_option maxHeartbeats 1000000
namespace Verif.Lib.Poly
open Verif.Control (Dest Kind Cast Patch Act Sys Env Big)
variable {a2 : ℚ} {n : Nat} {c : Ctx} {s s' : St} {l : Calls}
section
attribute [-lib_poly] n110 n83
theorem loop_off {i : Nat} (hn : s.mem 76 = [.float n]) : Ends (sys n a2 c) (((78, 0), [.float i]) :: l) s s' ↔
    if i < n then Ends (sys n a2 c) (((110, 0), [.float i]) :: ((83, 0), [.float i]) :: l) ((s.set 79 [.float i]).set 75 [.float 1]) s'
    else Ends (sys n a2 c) l ((s.set 79 [.float i]).set 75 [.float 0]) s' := by
  by_cases h : i < n <;> simp [lib_step, lib_poly, hn, h, tf]
end

structure OffMem (vs : List Voice) (p : ℚ) (x : Option Nat) (s : St) : Prop where
  pitch : s.mem 192 = [.float p]
  low : s.mem 201 = [.float (low vs x)]
  gate : s.mem 220 = [.float (fl x)]
  ix1 : s.mem 225 = [.float (ix x)]
  ix2 : s.mem 237 = [.float (ix x)]
  ix3 : s.mem 256 = [.float (ix x)]
  name1 : s.mem 129 = [.sym "1-used"]
  name2 : s.mem 151 = [.sym "1-ids"]
  name3 : s.mem 187 = [.sym "1-pitches"]

def nextOff (vs : List Voice) (p : ℚ) (x : Option Nat) (i : Nat) (v : Voice) : Option Nat :=
  if v.used ∧ v.pitch = p ∧ (v.id : ℚ) < low vs x then some i else x

theorem body_off {vs : List Voice} {i : Nat} {v : Voice} {p : ℚ} {x : Option Nat} (ht : Tabs vs s) (hN : Names c) (hv : vs[i]? = some v) (h : OffMem vs p x s) :
    ∃ s1, Ends (sys n a2 c) [((110, 0), [.float i])] s s1 ∧ OffMem vs p (nextOff vs p x i v) s1 ∧ Frame (76 :: 595 :: 812 :: keep) s s1 := by
  have hlen : i < vs.length := (List.getElem?_eq_some_iff.mp hv).1
  have hi : (i : ℚ) ≤ vs.length - 1 := by
    have : ((i + 1 : Nat) : ℚ) ≤ vs.length := by exact_mod_cast hlen
    push_cast at this; linarith
  have hlow : low vs (some i) = v.id := by simp [low, hv]
  have t0 : cell (s.tab 0) i = v.pitch := by simp [cell, ht.pitches, hv]
  have t1 : cell (s.tab 1) i = if v.used then 1 else 0 := by simp [cell, ht.used, hv]
  have t2 : cell (s.tab 2) i = v.id := by simp [cell, ht.ids, hv]
  have l0 : (s.tab 0).length = vs.length := by simp [ht.pitches]
  have l1 : (s.tab 1).length = vs.length := by simp [ht.used]
  have l2 : (s.tab 2).length = vs.length := by simp [ht.ids]
  obtain ⟨n1, n2, n3⟩ := hN
  obtain ⟨h1,h2,h3,h4,h5,h6,h7,h8,h9⟩ := h
  by_cases hc : v.used ∧ v.pitch = p ∧ (v.id : ℚ) < low vs x
  · rw [nextOff, if_pos hc]
    obtain ⟨hu, hp, hl⟩ := hc
    simp only [hu] at t1
    refine ⟨?s1, ?g1, ?_⟩
    case g1 =>
      simp [lib_step, lib_poly, tf, key, List.findIdx_cons, step_len n1, step_len n2, step_len n3, hi, step_read, step_index, hlen, t0, t1, t2, l0, l1, l2, h1, h2, h7, h8, h9, hl, hp]
      rfl
    refine ⟨⟨?_,?_,?_,?_,?_,?_,?_,?_,?_⟩, ⟨?_,?_,?_,?_,?_⟩⟩ <;> simp [lib_step, hlow, ix, fl, keep, *]
  · rw [nextOff, if_neg hc]
    cases hu : v.used <;> simp only [hu] at t1
    · refine ⟨?s2, ?g2, ?_⟩
      case g2 =>
        simp [lib_step, lib_poly, tf, key, List.findIdx_cons, step_len n1, step_len n2, step_len n3, hi, step_read, step_index, hlen, t0, t1, t2, l0, l1, l2, h1, h2, h7, h8, h9]
        rfl
      refine ⟨⟨?_,?_,?_,?_,?_,?_,?_,?_,?_⟩, ⟨?_,?_,?_,?_,?_⟩⟩ <;> simp [lib_step, keep, *]
    · have hc' : ¬ (v.pitch = p ∧ (v.id : ℚ) < low vs x) := fun h => hc ⟨hu, h⟩
      by_cases hp : v.pitch = p
      · have hl : ¬ (v.id : ℚ) < low vs x := fun h => hc' ⟨hp, h⟩
        refine ⟨?s3, ?g3, ?_⟩
        case g3 =>
          simp [lib_step, lib_poly, tf, key, List.findIdx_cons, step_len n1, step_len n2, step_len n3, hi, step_read, step_index, hlen, t0, t1, t2, l0, l1, l2, h1, h2, h7, h8, h9, hp, hl]
          rfl
        refine ⟨⟨?_,?_,?_,?_,?_,?_,?_,?_,?_⟩, ⟨?_,?_,?_,?_,?_⟩⟩ <;> simp [lib_step, keep, *]
      · refine ⟨?s4, ?g4, ?_⟩
        case g4 =>
          simp [lib_step, lib_poly, tf, key, List.findIdx_cons, step_len n1, step_len n2, step_len n3, hi, step_read, step_index, hlen, t0, t1, t2, l0, l1, l2, h1, h2, h7, h8, h9, hp]
          rfl
        refine ⟨⟨?_,?_,?_,?_,?_,?_,?_,?_,?_⟩, ⟨?_,?_,?_,?_,?_⟩⟩ <;> simp [lib_step, keep, *]

/-- looking at the voices, one after the other -/
def scanOff (vs : List Voice) (p : ℚ) : List Voice → Nat → Option Nat → Option Nat
  | [], _, x => x
  | v :: r, i, x => scanOff vs p r (i + 1) (nextOff vs p x i v)

theorem loop_off_run {vs : List Voice} {p : ℚ} (hN : Names c) (hn : vs.length = n) (r : List Voice) : ∀ (i : Nat) (x : Option Nat) (s : St),
    vs.drop i = r → i ≤ n → s.mem 76 = [.float n] → Tabs vs s → OffMem vs p x s →
    ∃ s1, Ends (sys n a2 c) [((78, 0), [.float i])] s s1 ∧ OffMem vs p (scanOff vs p r i x) s1 ∧ Frame (595 :: 812 :: keep) s s1 := by
  induction r with
  | nil =>
    intro i x s hr hi h5 ht hm
    have : ¬ i < n := by
      have := congrArg List.length hr
      simp at this; omega
    refine ⟨(s.set 79 [.float i]).set 75 [.float 0], ?_, ?_, ?_⟩
    · rw [loop_off h5, if_neg this, ends_nil]
    · obtain ⟨h1,h2,h3,h4,h5,h6,h7,h8,h9⟩ := hm
      refine ⟨?_,?_,?_,?_,?_,?_,?_,?_,?_⟩ <;> simp [lib_step, scanOff, *]
    · refine ⟨?_,?_,?_,?_,?_⟩ <;> simp [lib_step, keep]
  | cons v r ih =>
    intro i x s hr hi h5 ht hm
    have hv : vs[i]? = some v := by
      have := congrArg List.head? hr
      simpa using this
    have hr' : vs.drop (i + 1) = r := by
      have := congrArg List.tail hr
      simpa using this
    have hlt : i < n := by rw [← hn]; exact (List.getElem?_eq_some_iff.mp hv).1
    have ht' : Tabs vs ((s.set 79 [.float i]).set 75 [.float 1]) := ⟨ht.1, ht.2, ht.3⟩
    have hm' : OffMem vs p x ((s.set 79 [.float i]).set 75 [.float 1]) := by
      obtain ⟨h1,h2,h3,h4,h5,h6,h7,h8,h9⟩ := hm
      refine ⟨?_,?_,?_,?_,?_,?_,?_,?_,?_⟩ <;> simp [lib_step, *]
    have hf : Frame (76 :: 595 :: 812 :: keep) s ((s.set 79 [.float i]).set 75 [.float 1]) := by
      refine ⟨?_,?_,?_,?_,?_⟩ <;> simp [lib_step, keep]
    obtain ⟨s1, e1, m1, f1⟩ := body_off (n := n) (a2 := a2) ht' hN hv hm'
    have f1 := hf.trans f1
    obtain ⟨s2, e2, m2, f2⟩ := ih (i + 1) _ s1 hr' hlt (by rw [f1.mem 76 (by simp), h5]) (f1.tabs ht) m1
    refine ⟨s2, ?_, m2, Frame.trans ⟨f1.1, f1.2, f1.3, f1.4, fun j hj => f1.5 j (List.mem_cons_of_mem _ hj)⟩ f2⟩
    rw [loop_off h5, if_pos hlt]
    refine ends_trans e1 ?_
    simpa [lib_step, n83, o83_0] using e2

section
attribute [-lib_poly] n78_0 n216_0
theorem off_start {vs : List Voice} {steal p w v : ℚ} (h : Fixed n steal s) (ht : Tabs vs s) (hp : s.mem 270 = [.float w, .float v]) (hn : 0 < n) (hl : vs.length = n) :
    ∃ s1, (∀ s', Ends (sys n a2 c) [((78, 0), [.float (0 : Nat)]), ((216, 0), [.float p, .float v])] s1 s' → Ends (sys n a2 c) [((270, 0), [.float p])] s s') ∧
      OffMem vs p none s1 ∧ Frame (595 :: 812 :: keep') s s1 ∧ s1.mem 76 = [.float n] ∧ s1.mem 270 = [.float p, .float v] ∧ s1.mem 14 = s.mem 14 ∧ s1.mem 598 = s.mem 598 := by
  obtain ⟨h1,h2,h3,h4,h5,h6,h7,h8,h9,h10,h11,h12,h13,h14,h15,h16,h17,h18,h19,h20⟩ := h
  have z0 : Has (s.tab 0) = true := decide_eq_true (by simp [ht.pitches]; omega)
  have z1 : Has (s.tab 1) = true := decide_eq_true (by simp [ht.used]; omega)
  have z2 : Has (s.tab 2) = true := decide_eq_true (by simp [ht.ids]; omega)
  have n1 : (1:ℚ) ≤ n := by exact_mod_cast hn
  have n0 : (0:ℚ) < n := by linarith
  refine ⟨?s1, ?g1, ?_⟩
  case g1 =>
    intro s' h
    simp [lib_step, lib_poly, h1,h2,h3,h4,h5,h6,h7,h8,h9,h10,h11,h12,h13,h14,h15,h16,h17,h18,h19,h20, tf, n1, n0, key, List.findIdx_cons, step_index0, z0, z1, z2, hp, overlay]
    simpa [lib_step] using h
  refine ⟨⟨?_,?_,?_,?_,?_,?_,?_,?_,?_⟩, ⟨?_,?_,?_,?_,?_⟩, ?_⟩ <;> simp [lib_step, low, ix, fl, keep', *]
end

theorem off_some {vs : List Voice} {steal p v : ℚ} {o : Voice} {k j : Nat} (h : Fixed n steal s) (hV : Vary steal s) (ht : Tabs vs s) (hm : OffMem vs p (some j) s) (hk : s.mem 14 = [.float k]) (hj : vs[j]? = some o) (ho : o.pitch = p) :
    ∃ s', Ends (sys n a2 c) [((216, 0), [.float p, .float v])] s s' ∧ Done steal (vs.set j ⟨p, false, k % 65535⟩) (k % 65535 + 1) (say 0 p j) s s' := by
  have h1 := h.top
  obtain ⟨m1,m2,m3,m4,m5,m6,m7,m8,m9⟩ := hm
  obtain ⟨⟨z, hz⟩, h0⟩ := hV
  refine ⟨?s1, ?g1, ?_⟩
  case g1 =>
    simp [lib_step, lib_poly, h1, tf, key, List.findIdx_cons, m3, m4, m5, m6, fl, ix, hk, mod_eval]
    rfl
  have e0 : (vs.map fun v => v.pitch).set j p = vs.map fun v => v.pitch := by
    apply List.ext_getElem?
    intro i
    rw [List.getElem?_set]
    split
    · next e =>
      subst e
      have := (List.getElem?_eq_some_iff.mp hj).1
      rw [List.getElem?_map, hj, List.length_map, if_pos this, ← ho]
      rfl
    · rfl
  refine ⟨⟨?_,?_,?_⟩,?_,?_,?_,?_,?_,?_,?_,?_⟩
  · simp [lib_step, ht.pitches, List.map_set, e0]
  · simp [lib_step, ht.used, List.map_set]
  · simp [lib_step, ht.ids, List.map_set]
  · simp [lib_step]
  · simp [lib_step, say]
  · simp [lib_step]
  · simp [lib_step]
  · simp [lib_step, keep']
  · intro a b e
    exact ⟨a, by simp [lib_step, e]⟩
  · intro a b e
    exact ⟨a, by simp [lib_step, e]⟩
  · exact ⟨⟨_, by simp [lib_step, hz]; rfl⟩, fun e => by simp [lib_step, h0 e]⟩

theorem off_none {vs : List Voice} {steal p v : ℚ} {k : Nat} (hV : Vary steal s) (ht : Tabs vs s) (hm : OffMem vs p none s) (hk : s.mem 14 = [.float k]) :
    ∃ s', Ends (sys n a2 c) [((216, 0), [.float p, .float v])] s s' ∧ Done steal vs k [] s s' := by
  obtain ⟨m1,m2,m3,m4,m5,m6,m7,m8,m9⟩ := hm
  refine ⟨s, ?_, ⟨ht, hk, by simp, rfl, rfl, fun _ _ => rfl, fun w v h => ⟨w, h⟩, fun w v h => ⟨w, h⟩, hV⟩⟩
  simp [lib_step, lib_poly, tf, key, List.findIdx_cons, m3, fl, ix, hk, mod_eval]

/-- the end of a note, with the voice found -/
def noteOff (vs : List Voice) (k : Nat) (p : ℚ) (x : Option Nat) : List Voice × Nat × List (Nat × Msg) :=
  match x with
  | some j => (vs.set j ⟨p, false, k % 65535⟩, k % 65535 + 1, say 0 p j)
  | none => (vs, k, [])

theorem scan_off (vs : List Voice) (p : ℚ) (r : List Voice) : ∀ (i : Nat) (x : Option Nat), vs.drop i = r → (∀ j ∈ x, ∃ o, vs[j]? = some o ∧ o.pitch = p) →
    ∀ j ∈ scanOff vs p r i x, ∃ o, vs[j]? = some o ∧ o.pitch = p := by
  induction r with
  | nil => intro i x _ h; exact h
  | cons v r ih =>
    intro i x hr h
    refine ih (i + 1) _ (by have := congrArg List.tail hr; simpa using this) ?_
    intro j hj
    have hv : vs[i]? = some v := by
      have := congrArg List.head? hr
      simpa using this
    simp only [nextOff] at hj
    split at hj
    · next e => cases hj; exact ⟨v, hv, e.2.1⟩
    · exact h j hj

theorem off_run {vs : List Voice} {steal p v w : ℚ} {k : Nat} (h : Fixed n steal s) (hV : Vary steal s) (hN : Names c) (ht : Tabs vs s) (hk : s.mem 14 = [.float k]) (hp : s.mem 270 = [.float w, .float v])
    (hn : 0 < n) (hl : vs.length = n) : ∃ s', Ends (sys n a2 c) [((270, 0), [.float p])] s s' ∧
      let r := noteOff vs k p (scanOff vs p vs 0 none)
      Done steal r.1 r.2.1 r.2.2 s s' := by
  obtain ⟨s1, e1, m1, f1, q1, p1, k1, r1⟩ := off_start (a2 := a2) (c := c) (p := p) h ht hp hn hl
  obtain ⟨s2, e2, m2, f2⟩ := loop_off_run (a2 := a2) hN hl vs 0 none s1 rfl (by omega) q1 (f1.tabs ht) m1
  have hmem : ∀ i ∈ 595 :: 812 :: keep', s2.mem i = s.mem i := fun i hi => by
    rw [f2.mem i (by revert i; decide), f1.mem i hi]
  have h' : Fixed n steal s2 := h.keep fun i hi => hmem i (by simp [hi])
  have hk' : s2.mem 14 = [.float k] := by rw [f2.mem _ (by decide), k1, hk]
  have hV' : Vary steal s2 := by
    obtain ⟨⟨z, h1⟩, h2⟩ := hV
    exact ⟨⟨z, by rw [hmem _ (by decide), h1]⟩, fun e => by rw [hmem _ (by decide), h2 e]⟩
  have ht' := f2.tabs (f1.tabs ht)
  have hon := scan_off vs p vs 0 none rfl (by simp)
  generalize scanOff vs p vs 0 none = x at m2 hon
  have : ∃ s', Ends (sys n a2 c) [((216, 0), [.float p, .float v])] s2 s' ∧
      let r := noteOff vs k p x
      Done steal r.1 r.2.1 r.2.2 s2 s' := by
    cases x with
    | some j =>
      obtain ⟨o, h1, h2⟩ := hon j rfl
      exact off_some h' hV' ht' m2 hk' h1 h2
    | none => exact off_none hV' ht' m2 hk'
  obtain ⟨s3, e3, d3⟩ := this
  refine ⟨s3, e1 _ (ends_trans e2 e3), d3.tabs, d3.count, ?_, ?_, ?_, ?_, ?_, ?_, d3.vary⟩
  · rw [d3.log, f2.log, f1.log, f2.now, f1.now]
  · rw [d3.q, f2.q, f1.q]
  · rw [d3.now, f2.now, f1.now]
  · intro i hi; rw [d3.mem i hi, hmem i (by simp [hi])]
  · intro w v h; exact d3.vel1 w v (by rw [f2.mem _ (by decide), r1, h])
  · intro w' v' h
    rw [hp] at h
    simp only [List.cons.injEq, Atom.float.injEq, and_true] at h
    exact d3.vel2 p v' (by rw [f2.mem _ (by decide), p1, h.2])
end Verif.Lib.Poly
