import Verif.Remap
import Verif.ReduceGraph
import Mathlib.Tactic.Ring
/-!
What `remap_send_receive` does to the objects and connections of a graph.
-/
namespace Verif.Reduce

variable {α : Type}

/-- let the connections into `s` go to `w` -/
def mvDst (s w : Nat) (c : Conn) : Conn := if c.dst = s then { c with dst := w } else c
/-- let the connections from `r` come from `x` -/
def mvSrc (r x : Nat) (c : Conn) : Conn := if c.src = r then { c with src := x } else c

/-- objects have been added, with the numbers from `n` to `n' - 1`; the connections are now `M'`; the messages of the objects
other than those in `R` go the same ways as before -/
structure Grew (g g' : Graph α) (n n' : Nat) (M' : Multiset Conn) (R : Nat → Prop) : Prop where
  le : n ≤ n'
  wired : Wired g' M'
  src : ∀ c ∈ M', c.src < n'
  dst : ∀ c ∈ M', c.dst < n'
  ids : g'.ids = g.ids ++ List.range' n (n' - n)
  kind : ∀ p < n, g'.kind p = g.kind p
  order : ∀ p < n, ¬ R p → ∀ j, ctl (g'.outs p j) = ctl (g.outs p j)

theorem Grew.trans {g g1 g2 : Graph α} {n n1 n2 : Nat} {M1 M2 : Multiset Conn} {R : Nat → Prop} (a : Grew g g1 n n1 M1 R)
    (b : Grew g1 g2 n1 n2 M2 R) : Grew g g2 n n2 M2 R := by
  have h1 := a.le
  have h2 := b.le
  refine ⟨by omega, b.wired, b.src, b.dst, ?_, fun p hp => by rw [b.kind p (by omega), a.kind p hp],
    fun p hp hR j => by rw [b.order p (by omega) hR, a.order p hp hR]⟩
  rw [b.ids, a.ids, List.append_assoc]
  congr 1
  have := @List.range'_append n (n1 - n) (n2 - n1) 1
  rw [Nat.one_mul, show n + (n1 - n) = n1 by omega, show n1 - n + (n2 - n1) = n2 - n by omega] at this
  exact this

theorem Grew.mono {g g' : Graph α} {n n' : Nat} {M' : Multiset Conn} {R S : Nat → Prop} (a : Grew g g' n n' M' R)
    (h : ∀ p < n, R p → S p) : Grew g g' n n' M' S :=
  ⟨a.le, a.wired, a.src, a.dst, a.ids, a.kind, fun p hp hS j => a.order p hp (fun hR => hS (h p hp hR)) j⟩

theorem Grew.refl {g : Graph α} {n : Nat} {M : Multiset Conn} {R : Nat → Prop} (w : Wired g M) (h1 : ∀ c ∈ M, c.src < n)
    (h2 : ∀ c ∈ M, c.dst < n) : Grew g g n n M R :=
  ⟨Nat.le_refl _, w, h1, h2, by simp, fun _ _ => rfl, fun _ _ _ _ => rfl⟩

/-- new objects without connections -/
theorem grew_add {g : Graph α} {n : Nat} {M : Multiset Conn} {R : Nat → Prop} (w : Wired g M) (h1 : ∀ c ∈ M, c.src < n)
    (h2 : ∀ c ∈ M, c.dst < n) (xs : List (Kind α)) : Grew g (g.addObjs n xs) n (n + xs.length) M R ∧
      (∀ i y, xs[i]? = some y → (g.addObjs n xs).kind (n + i) = y) ∧
      ∀ p j, p < n → (g.addObjs n xs).outs p j = g.outs p j ∧ (g.addObjs n xs).ins p j = g.ins p j := by
  obtain ⟨a, b, c, d, e⟩ := addObjs_ok xs g n M w h1 h2
  exact ⟨⟨by omega, a, fun c hc => by have := h1 c hc; omega, fun c hc => by have := h2 c hc; omega, by rw [b]; congr 2; omega, c,
    fun p hp _ j => by rw [(e p j hp).1]⟩, d, e⟩

theorem mvDst_ctl {s w : Nat} {l : List Conn} (h : ∀ c ∈ l, c.ty = .c → c.dst ≠ s) (f : Conn → Conn) :
    (ctl l).map (redirect s f) = ctl l := by
  conv_rhs => rw [← List.map_id (ctl l)]
  refine List.map_congr_left fun c hc => ?_
  have := List.mem_filter.1 hc
  rw [redirect, if_neg (h c this.1 (by simpa using this.2))]
  rfl

/-- the connections into a send become connections into a new object -/
theorem write_ok {g : Graph α} {n : Nat} {M : Multiset Conn} {R : Nat → Prop} (w : Wired g M) (h1 : ∀ c ∈ M, c.src < n)
    (h2 : ∀ c ∈ M, c.dst < n) {s : Nat} (hs : s < n) (hin : ∀ c ∈ M, c.dst = s → c.inlet = 0 ∧ c.ty ≠ .c) :
    ∃ g', ((g.addObj n .varSig).addObj (n + 1) (.varWrite n)).updates
        (toIn (((g.addObj n .varSig).addObj (n + 1) (.varWrite n)).ins s 0) (n + 1) 0) = some g' ∧
      Grew g g' n (n + 2) (M.map (mvDst s (n + 1))) R ∧ g'.kind n = .varSig ∧ g'.kind (n + 1) = .varWrite n := by
  obtain ⟨a, b, c⟩ := grew_add (R := R) w h1 h2 [.varSig, .varWrite n]
  have e : (g.addObj n .varSig).addObj (n + 1) (.varWrite n) = g.addObjs n [.varSig, .varWrite n] := rfl
  rw [e]
  set g1 := g.addObjs n [.varSig, .varWrite n] with hg1
  have hM : M = ↑(g1.ins s 0) + M.filter (fun c => ¬ c.dst = s) := by
    conv_lhs => rw [← Multiset.filter_add_not (fun c : Conn => c.dst = s) M]
    congr 1
    rw [a.wired.ins]
    exact Multiset.filter_congr fun d hd => ⟨fun h => ⟨h, (hin d hd h).1⟩, fun h => h.1⟩
  have hL : ∀ d ∈ g1.ins s 0, d ∈ M ∧ d.dst = s ∧ d.inlet = 0 := fun d hd => a.wired.mem_ins.1 hd
  have w1 := a.wired
  rw [hM] at w1
  obtain ⟨g', f1, f2, f3, f4, f5⟩ := updates_src ((g1.ins s 0).map fun d => (d, [({ d with dst := n + 1, inlet := 0 } : Conn)])) g1
    (M.filter (fun c => ¬ c.dst = s)) (by simpa [Function.comp_def] using w1) (by
      intro u hu
      obtain ⟨d, hd, rfl⟩ := List.mem_map.1 hu
      refine ⟨by simp, fun m hm => ?_⟩
      simp only [List.mem_singleton] at hm
      subst hm
      exact ⟨rfl, rfl⟩)
  have hmap : M.map (mvDst s (n + 1)) = M.filter (fun c => ¬ c.dst = s) +
      ↑((g1.ins s 0).map fun d => ({ d with dst := n + 1, inlet := 0 } : Conn)) := by
    conv_lhs => rw [hM]
    rw [Multiset.map_add, Multiset.add_comm]
    congr 1
    · conv_rhs => rw [← Multiset.map_id (M.filter (fun c => ¬ c.dst = s))]
      refine Multiset.map_congr rfl fun d hd => ?_
      rw [mvDst, if_neg (Multiset.mem_filter.1 hd).2]
      rfl
    · rw [Multiset.map_coe]
      congr 1
      refine List.map_congr_left fun d hd => ?_
      obtain ⟨-, q1, q2⟩ := hL d hd
      rw [mvDst, if_pos q1]
      cases d
      simp only at q2
      subst q2
      rfl
  refine ⟨g', ?_, ⟨by omega, ?_, ?_, ?_, ?_, ?_, ?_⟩, ?_, ?_⟩
  · rw [← f1, toIn]; congr 1; simp [Function.comp_def]
  · rw [hmap]
    rw [List.flatMap_map] at f2
    rw [List.map_eq_flatMap]
    exact f2
  · intro d hd
    obtain ⟨d', hd', rfl⟩ := Multiset.mem_map.1 hd
    have := h1 d' hd'
    unfold mvDst; split <;> (try simp only) <;> omega
  · intro d hd
    obtain ⟨d', hd', rfl⟩ := Multiset.mem_map.1 hd
    have := h2 d' hd'
    unfold mvDst; split <;> (try simp only) <;> omega
  · rw [f3.ids, a.ids]; rfl
  · intro p hp; rw [f3.kind, a.kind p hp]
  · intro p hp _ j
    rw [f5 id s ?_ ?_ ?_ p j, mvDst_ctl (w := 0) ?_, (c p j hp).1]
    · intro d hd hty he
      exact (hin d (a.wired.mem_outs.1 hd).1 he).2 hty
    · intro u hu
      obtain ⟨d, hd, rfl⟩ := List.mem_map.1 hu
      obtain ⟨q1, q2, q3⟩ := hL d hd
      refine ⟨q2, .inr ⟨(hin d q1 q2).2, fun m hm => ?_⟩⟩
      simp only [List.mem_singleton] at hm
      subst hm
      exact (hin d q1 q2).2
    · intro u hu m hm
      obtain ⟨d, hd, rfl⟩ := List.mem_map.1 hu
      simp only [List.mem_singleton] at hm
      subst hm
      simp only; omega
    · intro d hd; exact (Multiset.mem_filter.1 hd).2
  · rw [f3.kind]; simpa using b 0 _ rfl
  · rw [f3.kind]; exact b 1 _ rfl

/-- the connections from a receive become connections from an object without connections -/
theorem take_ok {g : Graph α} {n : Nat} {M : Multiset Conn} (w : Wired g M) (h1 : ∀ c ∈ M, c.src < n) (h2 : ∀ c ∈ M, c.dst < n)
    {r x : Nat} (hx : x < n) (hrx : x ≠ r) (hxo : ∀ c ∈ M, c.src ≠ x)
    (hout : ∀ c ∈ M, c.src = r → c.outlet = 0 ∧ c.dst ≠ r) :
    ∃ g', g.updates ((g.outs r 0).map fun c => (some c, [{ c with src := x }])) = some g' ∧
      Grew g g' n n (M.map (mvSrc r x)) (fun p => p = r ∨ p = x) := by
  have hM : M = ↑(g.outs r 0) + M.filter (fun c => ¬ c.src = r) := by
    conv_lhs => rw [← Multiset.filter_add_not (fun c : Conn => c.src = r) M]
    congr 1
    rw [w.outs]
    exact Multiset.filter_congr fun d hd => ⟨fun h => ⟨h, (hout d hd h).1⟩, fun h => h.1⟩
  have hL : ∀ d ∈ g.outs r 0, d ∈ M ∧ d.src = r ∧ d.outlet = 0 := fun d hd => w.mem_outs.1 hd
  have hx0 : g.outs x 0 = [] := by
    rw [List.eq_nil_iff_forall_not_mem]
    intro c hc
    obtain ⟨q1, q2, -⟩ := w.mem_outs.1 hc
    exact hxo c q1 q2
  obtain ⟨g', e1, e2, e3, e4, e5, e6⟩ := updates_out hrx (g.outs r 0) g M _ [] w hM rfl hx0
    (fun c hc => (hout c (hL c hc).1 (hL c hc).2.1).2)
  have hup : fromOut (g.outs r 0) x = (g.outs r 0).map fun c => (some c, [{ c with src := x }]) := by
    unfold fromOut
    refine List.map_congr_left fun d hd => ?_
    obtain ⟨-, -, q⟩ := hL d hd
    cases d
    simp only at q
    subst q
    rfl
  have hmap : M.map (mvSrc r x) = M.filter (fun c => ¬ c.src = r) +
      ↑((g.outs r 0).map fun d => ({ d with src := x, outlet := 0 } : Conn)) := by
    conv_lhs => rw [hM]
    rw [Multiset.map_add, Multiset.add_comm]
    congr 1
    · conv_rhs => rw [← Multiset.map_id (M.filter (fun c => ¬ c.src = r))]
      refine Multiset.map_congr rfl fun d hd => ?_
      rw [mvSrc, if_neg (Multiset.mem_filter.1 hd).2]
      rfl
    · rw [Multiset.map_coe]
      congr 1
      refine List.map_congr_left fun d hd => ?_
      obtain ⟨-, q1, q2⟩ := hL d hd
      rw [mvSrc, if_pos q1]
      cases d
      simp only at q2
      subst q2
      rfl
  refine ⟨g', by rw [← hup]; exact e1, ⟨Nat.le_refl _, by rw [hmap]; exact e2, ?_, ?_, by rw [e3.ids]; simp, fun p _ => by rw [e3.kind], ?_⟩⟩
  · intro d hd
    obtain ⟨d', hd', rfl⟩ := Multiset.mem_map.1 hd
    have := h1 d' hd'
    unfold mvSrc; split <;> (try simp only) <;> omega
  · intro d hd
    obtain ⟨d', hd', rfl⟩ := Multiset.mem_map.1 hd
    have := h2 d' hd'
    unfold mvSrc; split <;> (try simp only) <;> omega
  · intro p _ hp j
    rw [e6 p j (fun h => absurd (Or.inr h) hp) (fun h => absurd (Or.inl h) hp)]

/-- let the ends change -/
def toDst (f : Nat → Nat) (c : Conn) : Conn := { c with dst := f c.dst }
/-- let the starts change -/
def fromSrc (f : Nat → Nat) (c : Conn) : Conn := { c with src := f c.src }

/-- the number of the write for a send -/
def writeOf (n : Nat) (ss : List Nat) (d : Nat) : Nat := if d ∈ ss then n + 2 * ss.idxOf d + 1 else d
/-- the number of the object that stands for a receive, when every receive needs `k` objects -/
def sourceOf (m k : Nat) (rs : List Nat) (d : Nat) : Nat := if d ∈ rs then m + k * rs.idxOf d else d

theorem writeAll_ok (ss : List Nat) : ∀ (g : Graph α) (n : Nat) (M : Multiset Conn) (R : Nat → Prop), Wired g M →
    (∀ c ∈ M, c.src < n) → (∀ c ∈ M, c.dst < n) → ss.Nodup → (∀ s ∈ ss, s < n) →
    (∀ s ∈ ss, ∀ c ∈ M, c.dst = s → c.inlet = 0 ∧ c.ty ≠ .c) →
    ∃ g', g.writeAll n ss = some g' ∧ Grew g g' n (n + 2 * ss.length) (M.map (toDst (writeOf n ss))) R ∧
      ∀ i, i < ss.length → g'.kind (n + 2 * i) = .varSig ∧ g'.kind (n + 2 * i + 1) = .varWrite (n + 2 * i) := by
  induction ss with
  | nil =>
    intro g n M R w h1 h2 _ _ _
    refine ⟨g, rfl, ?_, by simp⟩
    have : M.map (toDst (writeOf n [])) = M := by
      conv_rhs => rw [← Multiset.map_id M]
      exact Multiset.map_congr rfl fun c _ => by simp [toDst, writeOf]
    rw [this]
    exact Grew.refl w h1 h2
  | cons s ss ih =>
    intro g n M R w h1 h2 hnd hlt hin
    rw [List.nodup_cons] at hnd
    have hs := hlt s (by simp)
    obtain ⟨g1, e1, e2, e3, e4⟩ := write_ok (R := R) w h1 h2 hs (hin s (by simp))
    obtain ⟨g', f1, f2, f3⟩ := ih g1 (n + 2) _ R e2.wired e2.src e2.dst hnd.2 (fun s hs => by have := hlt s (by simp [hs]); omega) (by
      intro s' hs' c hc hd
      obtain ⟨c', hc', rfl⟩ := Multiset.mem_map.1 hc
      have hlt' := hlt s' (by simp [hs'])
      by_cases h : c'.dst = s
      · simp only [mvDst, if_pos h] at hd
        omega
      · rw [mvDst, if_neg h] at hd ⊢
        exact hin s' (by simp [hs']) c' hc' hd)
    refine ⟨g', ?_, ?_, ?_⟩
    · simp only [Graph.writeAll, e1, bind, Option.bind]; exact f1
    · have hM : (M.map (mvDst s (n + 1))).map (toDst (writeOf (n + 2) ss)) = M.map (toDst (writeOf n (s :: ss))) := by
        rw [Multiset.map_map]
        refine Multiset.map_congr rfl fun c hc => ?_
        have hcn := h2 c hc
        by_cases h : c.dst = s
        · have : n + 1 ∉ ss := fun hm => by have := hlt (n + 1) (by simp [hm]); omega
          simp [mvDst, toDst, writeOf, h, this]
        · have h' : ¬ s = c.dst := fun e => h e.symm
          have e : mvDst s (n + 1) c = c := if_neg h
          simp only [Function.comp, e]
          by_cases hm : c.dst ∈ ss
          · simp only [toDst, writeOf, List.mem_cons, h, false_or, hm, if_true, List.idxOf_cons_ne _ h']
            congr 1
            omega
          · simp only [toDst, writeOf, List.mem_cons, h, false_or, hm, if_false]
      rw [hM] at f2
      have := e2.trans f2
      rwa [show n + 2 + 2 * ss.length = n + 2 * (s :: ss).length by simp; omega] at this
    · intro i hi
      cases i with
      | zero =>
        rw [f2.kind _ (by omega), f2.kind _ (by omega)]
        exact ⟨e3, e4⟩
      | succ i =>
        have := f3 i (by simpa using hi)
        rwa [show n + 2 + 2 * i = n + 2 * (i + 1) by omega] at this

theorem readOne_ok (rs : List Nat) (y : Nat) : ∀ (g : Graph α) (m : Nat) (M : Multiset Conn), Wired g M →
    (∀ c ∈ M, c.src < m) → (∀ c ∈ M, c.dst < m) → rs.Nodup → (∀ r ∈ rs, r < m) →
    (∀ r ∈ rs, ∀ c ∈ M, c.src = r → c.outlet = 0 ∧ c.dst ≠ r) →
    ∃ g', g.readOne y m rs = some (g', m + rs.length) ∧
      Grew g g' m (m + rs.length) (M.map (fromSrc (sourceOf m 1 rs))) (· ∈ rs) ∧
      ∀ i, i < rs.length → g'.kind (m + i) = .varRead y := by
  induction rs with
  | nil =>
    intro g m M w h1 h2 _ _ _
    refine ⟨g, rfl, ?_, by simp⟩
    have : M.map (fromSrc (sourceOf m 1 [])) = M := by
      conv_rhs => rw [← Multiset.map_id M]
      exact Multiset.map_congr rfl fun c _ => by simp [fromSrc, sourceOf]
    rw [this]
    exact Grew.refl w h1 h2
  | cons r rs ih =>
    intro g m M w h1 h2 hnd hlt hout
    rw [List.nodup_cons] at hnd
    have hr := hlt r (by simp)
    obtain ⟨a1, a2, -⟩ := grew_add (R := (· ∈ r :: rs)) w h1 h2 [.varRead y]
    obtain ⟨g1, e1, e2⟩ := take_ok (r := r) (x := m) a1.wired a1.src a1.dst (by simp) (by omega)
      (fun c hc => by have := h1 c hc; omega) (hout r (by simp))
    have e2' : Grew (g.addObjs m [.varRead y]) g1 (m + 1) (m + 1) (M.map (mvSrc r m)) (fun p => p ∈ r :: rs ∨ m ≤ p) :=
      e2.mono fun p _ h => by
        rcases h with rfl | rfl
        · simp
        · simp
    have b := (a1.mono (S := fun p => p ∈ r :: rs ∨ m ≤ p) fun p _ h => .inl h).trans e2'
    obtain ⟨g', f1, f2, f3⟩ := ih g1 (m + 1) _ e2.wired e2.src e2.dst hnd.2 (fun s hs => by have := hlt s (by simp [hs]); omega) (by
      intro s' hs' c hc hd
      obtain ⟨c', hc', rfl⟩ := Multiset.mem_map.1 hc
      have hlt' := hlt s' (by simp [hs'])
      by_cases h : c'.src = r
      · simp only [mvSrc, if_pos h] at hd
        omega
      · rw [mvSrc, if_neg h] at hd ⊢
        exact hout s' (by simp [hs']) c' hc' hd)
    refine ⟨g', ?_, ?_, ?_⟩
    · have : g.addObj m (.varRead y) = g.addObjs m [.varRead y] := rfl
      simp only [Graph.readOne, this, e1, bind, Option.bind, f1, List.length_cons]
      congr 2; omega
    · have hM : (M.map (mvSrc r m)).map (fromSrc (sourceOf (m + 1) 1 rs)) = M.map (fromSrc (sourceOf m 1 (r :: rs))) := by
        rw [Multiset.map_map]
        refine Multiset.map_congr rfl fun c hc => ?_
        have hcn := h1 c hc
        by_cases h : c.src = r
        · have : m ∉ rs := fun hm => by have := hlt m (by simp [hm]); omega
          simp [mvSrc, fromSrc, sourceOf, h, this]
        · have h' : ¬ r = c.src := fun e => h e.symm
          have e : mvSrc r m c = c := if_neg h
          simp only [Function.comp, e]
          by_cases hm : c.src ∈ rs
          · simp only [fromSrc, sourceOf, List.mem_cons, h, false_or, hm, if_true, List.idxOf_cons_ne _ h']
            congr 1
            omega
          · simp only [fromSrc, sourceOf, List.mem_cons, h, false_or, hm, if_false]
      rw [hM] at f2
      have := b.trans (f2.mono (S := fun p => p ∈ r :: rs ∨ m ≤ p) fun p _ h => .inl (by simp [h]))
      rw [show m + 1 + rs.length = m + (r :: rs).length by simp; omega] at this
      exact this.mono fun p hp h => h.resolve_right (by omega)
    · intro i hi
      cases i with
      | zero =>
        rw [f2.kind _ (by omega), e2.kind _ (by simp)]
        exact a2 0 _ rfl
      | succ i =>
        have := f3 i (by simpa using hi)
        rwa [show m + 1 + i = m + (i + 1) by omega] at this

/-- the connections into the `__add~f` number `a`, from the reads with the numbers from `m` on -/
def readEdges (m a i k : Nat) : List Conn := (List.range' i k).map fun q => ⟨m + q, 0, a, if q = 0 then 0 else 1, .f⟩

theorem readVars_ok (ss : List Nat) (n m a : Nat) : ∀ (i : Nat) (g : Graph α) (M : Multiset Conn) (R : Nat → Prop), Wired g M →
    (∀ c ∈ M, c.src < m + i) → (∀ c ∈ M, c.dst < m + i) → a < m + i →
    Grew g (g.readVars n m a i ss) (m + i) (m + i + ss.length) (M + ↑(readEdges m a i ss.length)) R ∧
      (∀ q, q < ss.length → (g.readVars n m a i ss).kind (m + i + q) = .varRead (n + 2 * (i + q))) ∧
      ∀ p < m + i, ∀ j, (g.readVars n m a i ss).outs p j = g.outs p j := by
  induction ss with
  | nil =>
    intro i g M R w h1 h2 _
    exact ⟨by simpa [readEdges, Graph.readVars] using Grew.refl w h1 h2, by simp, fun _ _ _ => rfl⟩
  | cons s ss ih =>
    intro i g M R w h1 h2 ha
    obtain ⟨a1, a2, a3⟩ := grew_add (R := R) w h1 h2 [.varRead (n + 2 * i)]
    set g1 := g.addObjs (m + i) [.varRead (n + 2 * i)] with hg1
    set c : Conn := ⟨m + i, 0, a, if i = 0 then 0 else 1, .f⟩ with hc
    obtain ⟨b1, b2, b3⟩ := connect_ok a1.wired c
    have hsrc : ∀ d ∈ M + {c}, d.src < m + (i + 1) := by
      intro d hd
      rcases Multiset.mem_add.1 hd with h | h
      · have := h1 d h; omega
      · rw [Multiset.mem_singleton.1 h, hc]; simp only; omega
    have hdst : ∀ d ∈ M + {c}, d.dst < m + (i + 1) := by
      intro d hd
      rcases Multiset.mem_add.1 hd with h | h
      · have := h2 d h; omega
      · rw [Multiset.mem_singleton.1 h, hc]; simp only; omega
    obtain ⟨f1, f2, f3⟩ := ih (i + 1) (g1.connect c) _ R b1 hsrc hdst (by omega)
    have hE : g.readVars n m a i (s :: ss) = (g1.connect c).readVars n m a (i + 1) ss := rfl
    have ho : ∀ p < m + i, ∀ j, (g1.connect c).outs p j = g.outs p j := by
      intro p hp j
      rw [b3]
      simp only
      rw [if_neg, (a3 p j hp).1]
      rintro ⟨h, -⟩
      simp only [hc] at h
      omega
    have e : Grew g (g1.connect c) (m + i) (m + (i + 1)) (M + {c}) R :=
      ⟨by omega, b1, hsrc, hdst, by rw [b2.ids, a1.ids]; congr 2, fun p hp => by rw [b2.kind, a1.kind p hp],
        fun p hp _ j => by rw [ho p hp]⟩
    rw [hE]
    refine ⟨?_, ?_, fun p hp j => by rw [f3 p (by omega), ho p hp]⟩
    · have := e.trans f1
      rw [show m + (i + 1) + ss.length = m + i + (s :: ss).length by simp; omega, Multiset.add_assoc] at this
      convert this using 2
      rw [Multiset.singleton_add, Multiset.cons_coe]
      rfl
    · intro q hq
      cases q with
      | zero =>
        rw [f1.kind _ (by omega), b2.kind]
        exact a2 0 _ rfl
      | succ q =>
        have := f2 q (by simpa using hq)
        rwa [show m + (i + 1) + q = m + i + (q + 1) by omega, show i + 1 + q = i + (q + 1) by omega] at this

/-- all connections into the new `__add~f` objects -/
def sumEdges (m k : Nat) (rs : List Nat) : List Conn :=
  (List.range rs.length).flatMap fun j => readEdges (m + (k + 1) * j + 1) (m + (k + 1) * j) 0 k

theorem sumEdges_cons (m k r : Nat) (rs : List Nat) :
    sumEdges m k (r :: rs) = readEdges (m + 1) m 0 k ++ sumEdges (m + 1 + k) k rs := by
  unfold sumEdges
  rw [List.length_cons, List.range_succ_eq_map, List.flatMap_cons, List.flatMap_map]
  congr 1
  refine List.flatMap_congr fun j _ => ?_
  rw [show m + (k + 1) * (j + 1) = m + 1 + k + (k + 1) * j by ring_nf]

theorem readAll_ok (rs : List Nat) (n : Nat) (ss : List Nat) : ∀ (g : Graph α) (m : Nat) (M : Multiset Conn), Wired g M →
    (∀ c ∈ M, c.src < m) → (∀ c ∈ M, c.dst < m) → rs.Nodup → (∀ r ∈ rs, r < m) →
    (∀ r ∈ rs, ∀ c ∈ M, c.src = r → c.outlet = 0 ∧ c.dst ≠ r) →
    ∃ g', g.readAll n ss m rs = some (g', m + (ss.length + 1) * rs.length) ∧
      Grew g g' m (m + (ss.length + 1) * rs.length)
        (M.map (fromSrc (sourceOf m (ss.length + 1) rs)) + ↑(sumEdges m ss.length rs)) (· ∈ rs) ∧
      ∀ j, j < rs.length → g'.kind (m + (ss.length + 1) * j) = .irBin "__add~f" ∧
        ∀ i, i < ss.length → g'.kind (m + (ss.length + 1) * j + 1 + i) = .varRead (n + 2 * i) := by
  induction rs with
  | nil =>
    intro g m M w h1 h2 _ _ _
    refine ⟨g, rfl, ?_, by simp⟩
    have : M.map (fromSrc (sourceOf m (ss.length + 1) [])) + ↑(sumEdges m ss.length []) = M := by
      rw [show sumEdges m ss.length [] = [] from rfl, Multiset.coe_nil, Multiset.add_zero]
      conv_rhs => rw [← Multiset.map_id M]
      exact Multiset.map_congr rfl fun c _ => by simp [fromSrc, sourceOf]
    rw [this]
    exact Grew.refl w h1 h2
  | cons r rs ih =>
    intro g m M w h1 h2 hnd hlt hout
    rw [List.nodup_cons] at hnd
    have hr := hlt r (by simp)
    set k := ss.length with hk
    obtain ⟨a1, a2, a3⟩ := grew_add (R := (· ∈ r :: rs)) w h1 h2 [.irBin "__add~f"]
    set g0 := g.addObjs m [.irBin "__add~f"] with hg0
    obtain ⟨b1, b2, b3⟩ := readVars_ok ss n (m + 1) m 0 g0 M (· ∈ r :: rs) a1.wired a1.src a1.dst (by omega)
    set g1 := g0.readVars n (m + 1) m 0 ss with hg1
    rw [Nat.add_zero] at b1 b2 b3
    rw [← hk] at b1 b2
    have hedge : ∀ c ∈ readEdges (m + 1) m 0 k, m < c.src ∧ c.src < m + 1 + k ∧ c.dst = m := by
      intro c hc
      obtain ⟨q, hq, rfl⟩ := List.mem_map.1 hc
      have := List.mem_range'_1.1 hq
      refine ⟨?_, ?_, rfl⟩ <;> (simp only; omega)
    obtain ⟨g2, e1, e2⟩ := take_ok (r := r) (x := m) b1.wired b1.src b1.dst (by omega) (by omega) (by
        intro c hc
        rcases Multiset.mem_add.1 hc with h | h
        · have := h1 c h; omega
        · have := (hedge c h).1; omega) (by
        intro c hc hcr
        rcases Multiset.mem_add.1 hc with h | h
        · exact hout r (by simp) c h hcr
        · have := (hedge c h).1; omega)
    have e2' := e2.mono (S := fun p => p ∈ r :: rs ∨ m ≤ p) fun p _ h => by
        rcases h with rfl | rfl
        · simp
        · simp
    have b := ((a1.mono (S := fun p => p ∈ r :: rs ∨ m ≤ p) fun p _ h => .inl h).trans
      (b1.mono (S := fun p => p ∈ r :: rs ∨ m ≤ p) fun p _ h => .inl h)).trans e2'
    have hsplit : (M + ↑(readEdges (m + 1) m 0 k)).map (mvSrc r m) = M.map (mvSrc r m) + ↑(readEdges (m + 1) m 0 k) := by
      rw [Multiset.map_add]
      congr 1
      rw [Multiset.map_coe]
      congr 1
      conv_rhs => rw [← List.map_id (readEdges (m + 1) m 0 k)]
      refine List.map_congr_left fun c hc => ?_
      have := (hedge c hc).1
      rw [mvSrc, if_neg (by omega)]
      rfl
    obtain ⟨g', f1, f2, f3⟩ := ih g2 (m + 1 + k) _ e2.wired e2.src e2.dst hnd.2 (fun s hs => by have := hlt s (by simp [hs]); omega) (by
      intro s' hs' c hc hd
      have hlt' := hlt s' (by simp [hs'])
      rw [hsplit] at hc
      rcases Multiset.mem_add.1 hc with hc | hc
      · obtain ⟨c', hc', rfl⟩ := Multiset.mem_map.1 hc
        by_cases h : c'.src = r
        · simp only [mvSrc, if_pos h] at hd
          omega
        · rw [mvSrc, if_neg h] at hd ⊢
          exact hout s' (by simp [hs']) c' hc' hd
      · have := (hedge c hc).1; omega)
    have hlen : m + 1 + k + (k + 1) * rs.length = m + (k + 1) * (r :: rs).length := by
      rw [List.length_cons]; ring
    refine ⟨g', ?_, ?_, ?_⟩
    · have : g.addObj m (.irBin "__add~f") = g0 := rfl
      simp only [Graph.readAll, this]
      rw [← hg1]
      simp only [e1, bind, Option.bind]
      rw [← hk, f1, hlen]
    · have hM : ((M + ↑(readEdges (m + 1) m 0 k)).map (mvSrc r m)).map (fromSrc (sourceOf (m + 1 + k) (k + 1) rs)) +
          ↑(sumEdges (m + 1 + k) k rs) = M.map (fromSrc (sourceOf m (k + 1) (r :: rs))) + ↑(sumEdges m k (r :: rs)) := by
        rw [hsplit, Multiset.map_add, sumEdges_cons, ← Multiset.coe_add, ← Multiset.add_assoc]
        congr 1
        congr 1
        · rw [Multiset.map_map]
          refine Multiset.map_congr rfl fun c hc => ?_
          have hcn := h1 c hc
          by_cases h : c.src = r
          · have : m ∉ rs := fun hm => by have := hlt m (by simp [hm]); omega
            simp [mvSrc, fromSrc, sourceOf, h, this]
          · have h' : ¬ r = c.src := fun e => h e.symm
            have e : mvSrc r m c = c := if_neg h
            simp only [Function.comp, e]
            by_cases hm : c.src ∈ rs
            · simp only [fromSrc, sourceOf, List.mem_cons, h, false_or, hm, if_true, List.idxOf_cons_ne _ h']
              congr 1
              rw [Nat.succ_eq_add_one]
              ring
            · simp only [fromSrc, sourceOf, List.mem_cons, h, false_or, hm, if_false]
        · rw [Multiset.map_coe]
          congr 1
          conv_rhs => rw [← List.map_id (readEdges (m + 1) m 0 k)]
          refine List.map_congr_left fun c hc => ?_
          have h3 := (hedge c hc).1
          have : c.src ∉ rs := fun hm => by have := hlt _ (by simp [hm] : c.src ∈ r :: rs); omega
          simp [fromSrc, sourceOf, this]
      rw [hM] at f2
      have := b.trans (f2.mono (S := fun p => p ∈ r :: rs ∨ m ≤ p) fun p _ h => .inl (by simp [h]))
      rw [hlen] at this
      exact this.mono fun p hp h => h.resolve_right (by omega)
    · intro j hj
      cases j with
      | zero =>
        rw [Nat.mul_zero, Nat.add_zero]
        constructor
        · rw [f2.kind _ (by omega), e2.kind _ (by omega), b1.kind _ (by simp)]
          exact a2 0 _ rfl
        · intro i hi
          rw [f2.kind _ (by omega), e2.kind _ (by omega), b2 i hi, Nat.zero_add]
      | succ j =>
        have := f3 j (by simpa using hj)
        rwa [show m + 1 + k + (k + 1) * j = m + (k + 1) * (j + 1) by ring] at this

/-- several objects without connections are removed -/
theorem removeObjs_ok (os : List Nat) : ∀ (g : Graph α) (M : Multiset Conn), Wired g M → g.ids.Nodup →
    (∀ o ∈ os, ∀ c ∈ M, c.src ≠ o ∧ c.dst ≠ o) →
    g.removeObjs os = some { g with ids := g.ids.filter (· ∉ os) } := by
  induction os with
  | nil => intro g M w _ _; simp [Graph.removeObjs]
  | cons o os ih =>
    intro g M w hnd h
    have h0 : g.outs o 0 = [] := by
      rw [List.eq_nil_iff_forall_not_mem]
      intro c hc
      obtain ⟨q1, q2, -⟩ := w.mem_outs.1 hc
      exact (h o (by simp) c q1).1 q2
    have e1 := removeObj_bare (o := o) w (fun c hc => (h o (by simp) c hc).2) h0
    have e2 := ih { g with ids := g.ids.erase o } M ⟨w.outs, w.ins⟩ (hnd.erase o) (fun p hp => h p (by simp [hp]))
    simp only [Graph.removeObjs, e1, bind, Option.bind, e2]
    congr 2
    rw [hnd.erase_eq_filter, List.filter_filter]
    refine List.filter_congr fun p _ => ?_
    by_cases h1 : p = o <;> simp [h1]

end Verif.Reduce
