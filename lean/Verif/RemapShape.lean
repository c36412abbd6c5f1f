import Verif.RemapGraph
/-!
The graph after `remap_send_receive` has dealt with one name.
-/
namespace Verif.Reduce

variable {α : Type}

/-- sends `ss` and receives `rs` in their places -/
structure Place (g : Graph α) (n : Nat) (M : Multiset Conn) (ss rs : List Nat) : Prop where
  wired : Wired g M
  src : ∀ c ∈ M, c.src < n
  dst : ∀ c ∈ M, c.dst < n
  nodup : g.ids.Nodup
  below : ∀ o ∈ g.ids, o < n
  ssNodup : ss.Nodup
  rsNodup : rs.Nodup
  ssMem : ∀ s ∈ ss, s ∈ g.ids
  rsMem : ∀ r ∈ rs, r ∈ g.ids
  ssIn : ∀ s ∈ ss, ∀ c ∈ M, c.dst = s → c.inlet = 0 ∧ c.ty ≠ .c
  ssOut : ∀ s ∈ ss, ∀ c ∈ M, c.src ≠ s
  rsOut : ∀ r ∈ rs, ∀ c ∈ M, c.src = r → c.outlet = 0 ∧ c.ty ≠ .c
  rsIn : ∀ r ∈ rs, ∀ c ∈ M, c.dst ≠ r

/-- a connection after the step -/
def ren (wr so : Nat → Nat) (c : Conn) : Conn := { c with src := so c.src, dst := wr c.dst }

/-- the connections between the new objects: none for one send, else those of the sums -/
def sums (ss rs : List Nat) (so : Nat → Nat) (rd : Nat → Nat → Nat) : List Conn :=
  rs.flatMap fun r => ss.map fun s => ⟨rd s r, 0, so r, if ss.idxOf s = 0 then 0 else 1, .f⟩

/-- the send `s` has become the write `wr s` of the variable `var s`; `rd s r` is the read of this variable at the receive `r`;
`so r` is the object with the sum of the reads at `r` -/
structure Shape (g : Graph α) (n : Nat) (M : Multiset Conn) (ss rs : List Nat) (g' : Graph α) (n' : Nat) (wr var so : Nat → Nat)
    (rd : Nat → Nat → Nat) (E : List Conn) : Prop where
  le : n ≤ n'
  wired : Wired g' (M.map (ren wr so) + ↑E)
  ids : g'.ids = g.ids.filter (fun p => p ∉ ss ∧ p ∉ rs) ++ List.range' n (n' - n)
  kind : ∀ p < n, g'.kind p = g.kind p
  order : ∀ p < n, p ∉ rs → ∀ j, ctl (g'.outs p j) = ctl (g.outs p j)
  wrOld : ∀ p, p ∉ ss → wr p = p
  soOld : ∀ p, p ∉ rs → so p = p
  wrNew : ∀ s ∈ ss, n ≤ wr s ∧ wr s < n' ∧ g'.kind (wr s) = .varWrite (var s)
  wrInj : ∀ s ∈ ss, ∀ q ∈ ss, wr s = wr q → s = q
  varNew : ∀ s ∈ ss, n ≤ var s ∧ var s < n' ∧ g'.kind (var s) = .varSig
  varInj : ∀ s ∈ ss, ∀ q ∈ ss, var s = var q → s = q
  soNew : ∀ r ∈ rs, n ≤ so r ∧ so r < n'
  soInj : ∀ r ∈ rs, ∀ q ∈ rs, so r = so q → r = q
  rdNew : ∀ s ∈ ss, ∀ r ∈ rs, n ≤ rd s r ∧ rd s r < n' ∧ g'.kind (rd s r) = .varRead (var s)
  rdInj : ∀ s ∈ ss, ∀ r ∈ rs, ∀ q ∈ rs, rd s r = rd s q → r = q
  all : ∀ x, n ≤ x → x < n' → (∃ s ∈ ss, x = var s ∨ x = wr s) ∨ ∃ r ∈ rs, x = so r ∨ ∃ s ∈ ss, x = rd s r
  sum : (∃ s, ss = [s] ∧ E = [] ∧ ∀ r ∈ rs, so r = rd s r) ∨
    (E = sums ss rs so rd ∧ ∀ r ∈ rs, g'.kind (so r) = .irBin "__add~f")

theorem range_idxOf {l : List Nat} (h : l.Nodup) : List.range l.length = l.map l.idxOf := by
  refine List.ext_getElem (by simp) fun i h1 h2 => ?_
  simp only [List.getElem_range, List.getElem_map]
  rw [h.idxOf_getElem]

theorem sumEdges_eq {ss rs : List Nat} (h1 : ss.Nodup) (h2 : rs.Nodup) (m : Nat) :
    sumEdges m ss.length rs = sums ss rs (sourceOf m (ss.length + 1) rs)
      (fun s r => m + (ss.length + 1) * rs.idxOf r + 1 + ss.idxOf s) := by
  unfold sumEdges sums
  rw [range_idxOf h2, List.flatMap_map]
  refine List.flatMap_congr fun r hr => ?_
  unfold readEdges
  rw [← List.range_eq_range', range_idxOf h1, List.map_map]
  refine List.map_congr_left fun s _ => ?_
  simp only [Function.comp, sourceOf, if_pos hr]

variable {g : Graph α} {n : Nat} {M : Multiset Conn} {ss rs : List Nat}

/-- the writes and the reads together -/
theorem Place.shape (h : Place g n M ss rs) {g1 g2 : Graph α} {m n' : Nat} {k : Nat} {E : List Conn} {rd : Nat → Nat → Nat}
    (hm : m = n + 2 * ss.length) (hk : 0 < k)
    (a : Grew g g1 n m (M.map (toDst (writeOf n ss))) (fun _ => False))
    (a2 : ∀ i, i < ss.length → g1.kind (n + 2 * i) = .varSig ∧ g1.kind (n + 2 * i + 1) = .varWrite (n + 2 * i))
    (b : Grew g1 g2 m n' ((M.map (toDst (writeOf n ss))).map (fromSrc (sourceOf m k rs)) + ↑E) (· ∈ rs))
    (hn' : n' = m + k * rs.length)
    (hE : ∀ e ∈ E, n ≤ e.src ∧ n ≤ e.dst)
    (rdNew : ∀ s ∈ ss, ∀ r ∈ rs, n ≤ rd s r ∧ rd s r < n' ∧ g2.kind (rd s r) = .varRead (n + 2 * ss.idxOf s))
    (rdInj : ∀ s ∈ ss, ∀ r ∈ rs, ∀ q ∈ rs, rd s r = rd s q → r = q)
    (all : ∀ x, m ≤ x → x < n' → ∃ r ∈ rs, x = sourceOf m k rs r ∨ ∃ s ∈ ss, x = rd s r)
    (sum : (∃ s, ss = [s] ∧ E = [] ∧ ∀ r ∈ rs, sourceOf m k rs r = rd s r) ∨
      (E = sums ss rs (sourceOf m k rs) rd ∧ ∀ r ∈ rs, g2.kind (sourceOf m k rs r) = .irBin "__add~f")) :
    ∃ g', (do let g ← g2.removeObjs ss; let g ← g.removeObjs rs; return (g, n')) = some (g', n') ∧
      Shape g n M ss rs g' n' (writeOf n ss) (fun s => n + 2 * ss.idxOf s) (sourceOf m k rs) rd E := by
  have ab : Grew g g2 n n' _ (· ∈ rs) := (a.mono (S := (· ∈ rs)) (fun _ _ h => h.elim)).trans b
  have hnd2 : g2.ids.Nodup := by
    rw [ab.ids, List.nodup_append]
    refine ⟨h.nodup, List.nodup_range', ?_⟩
    intro p hp q hq
    have h1 := h.below p hp
    have h2 := (List.mem_range'_1.1 hq).1
    omega
  have hbn : ∀ s ∈ ss, s < n := fun s hs => h.below s (h.ssMem s hs)
  have hrn : ∀ r ∈ rs, r < n := fun r hr => h.below r (h.rsMem r hr)
  have hmap : (M.map (toDst (writeOf n ss))).map (fromSrc (sourceOf m k rs)) = M.map (ren (writeOf n ss) (sourceOf m k rs)) := by
    rw [Multiset.map_map]; rfl
  have hbare : ∀ o ∈ ss ++ rs, ∀ c ∈ (M.map (toDst (writeOf n ss))).map (fromSrc (sourceOf m k rs)) + ↑E, c.src ≠ o ∧ c.dst ≠ o := by
    intro o ho c hc
    have hon : o < n := by rcases List.mem_append.1 ho with h | h; exacts [hbn o h, hrn o h]
    rcases Multiset.mem_add.1 hc with hc | hc
    · rw [hmap] at hc
      obtain ⟨d, hd, rfl⟩ := Multiset.mem_map.1 hc
      simp only [ren]
      constructor
      · unfold sourceOf
        split
        · omega
        · rename_i hnr
          intro e
          rcases List.mem_append.1 ho with h' | h'
          · exact h.ssOut o h' d hd e
          · exact hnr (e ▸ h')
      · unfold writeOf
        split
        · omega
        · rename_i hns
          intro e
          rcases List.mem_append.1 ho with h' | h'
          · exact hns (e ▸ h')
          · exact h.rsIn o h' d hd e
    · have := hE c hc
      omega
  have r1 := removeObjs_ok ss g2 _ b.wired hnd2 (fun o ho => hbare o (List.mem_append_left _ ho))
  have r2 := removeObjs_ok rs { g2 with ids := g2.ids.filter (· ∉ ss) } _ ⟨b.wired.outs, b.wired.ins⟩ (hnd2.filter _)
    (fun o ho => hbare o (List.mem_append_right _ ho))
  refine ⟨{ g2 with ids := (g2.ids.filter (· ∉ ss)).filter (· ∉ rs) }, by simp only [r1, bind, Option.bind, r2]; rfl, ⟨ab.le, ?_, ?_, ab.kind, ab.order, ?_, ?_, ?_, ?_, ?_, ?_, ?_, ?_, ?_, ?_, ?_, ?_⟩⟩
  · rw [← hmap]; exact ⟨b.wired.outs, b.wired.ins⟩
  · show (g2.ids.filter (· ∉ ss)).filter (· ∉ rs) = _
    rw [List.filter_filter, ab.ids, List.filter_append]
    congr 1
    · refine List.filter_congr fun p _ => ?_
      by_cases h1 : p ∈ ss <;> by_cases h2 : p ∈ rs <;> simp [h1, h2]
    · rw [List.filter_eq_self]
      intro p hp
      have hp := (List.mem_range'_1.1 hp).1
      have h1 : p ∉ ss := fun h => by have := hbn p h; omega
      have h2 : p ∉ rs := fun h => by have := hrn p h; omega
      simp [h1, h2]
  · intro p hp; rw [writeOf, if_neg hp]
  · intro p hp; rw [sourceOf, if_neg hp]
  · intro s hs
    have hi := List.idxOf_lt_length_of_mem hs
    rw [writeOf, if_pos hs]
    refine ⟨by omega, by have := b.le; omega, ?_⟩
    show g2.kind _ = _
    rw [b.kind _ (by omega)]
    exact (a2 _ hi).2
  · intro s hs q hq e
    rw [writeOf, if_pos hs, writeOf, if_pos hq] at e
    exact (List.idxOf_inj hs).1 (by omega)
  · intro s hs
    have hi := List.idxOf_lt_length_of_mem hs
    refine ⟨by omega, by have := b.le; omega, ?_⟩
    show g2.kind _ = _
    rw [b.kind _ (by omega)]
    exact (a2 _ hi).1
  · intro s hs q hq e
    have e : n + 2 * ss.idxOf s = n + 2 * ss.idxOf q := e
    exact (List.idxOf_inj hs).1 (by omega)
  · intro r hr
    have hi := List.idxOf_lt_length_of_mem hr
    rw [sourceOf, if_pos hr]
    have : k * rs.idxOf r < k * rs.length := Nat.mul_lt_mul_of_pos_left hi hk
    omega
  · intro r hr q hq e
    rw [sourceOf, if_pos hr, sourceOf, if_pos hq] at e
    exact (List.idxOf_inj hr).1 (Nat.eq_of_mul_eq_mul_left hk (by omega))
  · exact rdNew
  · exact rdInj
  · intro x hx1 hx2
    by_cases hxm : x < m
    · left
      have hi : (x - n) / 2 < ss.length := by omega
      refine ⟨ss[(x - n) / 2], List.getElem_mem _, ?_⟩
      have e := h.ssNodup.idxOf_getElem _ hi
      rw [writeOf, if_pos (List.getElem_mem _)]
      simp only [e]
      omega
    · exact .inr (all x (by omega) hx2)
  · exact sum

/-- one name -/
theorem remapName_ok (h : Place g n M ss rs) (hne : ss ≠ []) : ∃ g' n' wr var so rd E, g.remapName n ss rs = some (g', n') ∧
    Shape g n M ss rs g' n' wr var so rd E := by
  have hbn : ∀ s ∈ ss, s < n := fun s hs => h.below s (h.ssMem s hs)
  have hrn : ∀ r ∈ rs, r < n := fun r hr => h.below r (h.rsMem r hr)
  obtain ⟨g1, a1, a2, a3⟩ := writeAll_ok ss g n M (fun _ => False) h.wired h.src h.dst h.ssNodup hbn h.ssIn
  have hout : ∀ r ∈ rs, ∀ c ∈ M.map (toDst (writeOf n ss)), c.src = r → c.outlet = 0 ∧ c.dst ≠ r := by
    intro r hr c hc hcr
    obtain ⟨d, hd, rfl⟩ := Multiset.mem_map.1 hc
    refine ⟨(h.rsOut r hr d hd hcr).1, ?_⟩
    have := h.rsIn r hr d hd
    have := hrn r hr
    simp only [toDst, writeOf]
    split
    · omega
    · exact h.rsIn r hr d hd
  have hrm : ∀ r ∈ rs, r < n + 2 * ss.length := fun r hr => by have := hrn r hr; omega
  match ss, hne with
  | [s], _ =>
    obtain ⟨g2, b1, b2, b3⟩ := readOne_ok rs n g1 (n + 2 * 1) _ a2.wired a2.src a2.dst h.rsNodup hrm hout
    obtain ⟨g', c1, c2⟩ := h.shape (m := n + 2 * 1) (k := 1) (E := []) (rd := fun _ r => sourceOf (n + 2 * 1) 1 rs r) (n' := n + 2 * 1 + rs.length)
      rfl (by omega) a2 a3 (by rw [Multiset.coe_nil, Multiset.add_zero]; exact b2) (by omega) (by simp) (by
        intro s' hs r hr
        have hi := List.idxOf_lt_length_of_mem hr
        simp only [sourceOf, if_pos hr, List.mem_singleton.1 hs, Nat.one_mul]
        refine ⟨by omega, by omega, ?_⟩
        rw [b3 _ hi]
        simp) (by
        intro s _ r hr q hq e
        simp only [sourceOf, if_pos hr, if_pos hq] at e
        exact (List.idxOf_inj hr).1 (by omega)) (by
        intro x hx1 hx2
        have hi : x - (n + 2 * 1) < rs.length := by omega
        refine ⟨rs[x - (n + 2 * 1)], List.getElem_mem _, .inl ?_⟩
        rw [sourceOf, if_pos (List.getElem_mem _), h.rsNodup.idxOf_getElem _ hi]
        omega) (.inl ⟨s, rfl, rfl, fun _ _ => rfl⟩)
    refine ⟨g', _, _, _, _, _, _, ?_, c2⟩
    have hw : (toIn (((g.addObj n .varSig).addObj (n + 1) (.varWrite n)).ins s 0) (n + 1) 0) =
        (((g.addObj n .varSig).addObj (n + 1) (.varWrite n)).ins s 0).map fun c => (some c, [{ c with dst := n + 1 }]) := by
      obtain ⟨q1, -, q3⟩ := grew_add (R := fun _ => False) h.wired h.src h.dst [.varSig, .varWrite n]
      unfold toIn
      refine List.map_congr_left fun c hc => ?_
      have hc' : c ∈ (g.addObjs n [.varSig, .varWrite n]).ins s 0 := hc
      have := (q1.wired.mem_ins.1 hc').2.2
      cases c
      simp only at this
      subst this
      rfl
    have a1' : ((g.addObj n .varSig).addObj (n + 1) (.varWrite n)).updates
        ((((g.addObj n .varSig).addObj (n + 1) (.varWrite n)).ins s 0).map fun c => (some c, [{ c with dst := n + 1 }])) = some g1 := by
      rw [← hw]
      have a1' := a1
      simp only [Graph.writeAll, bind, Option.bind] at a1'
      split at a1'
      · exact absurd a1' (by simp)
      · rename_i gw hgw
        rw [hgw]
        exact a1'
    have b1' : g1.readOne n (n + 2) rs = some (g2, n + 2 * 1 + rs.length) := b1
    simp only [Graph.remapName, bind, Option.bind]
    rw [a1']
    simp only
    rw [b1']
    exact c1
  | s :: s' :: ss, _ =>
    set l := s :: s' :: ss with hl
    obtain ⟨g2, b1, b2, b3⟩ := readAll_ok rs n l g1 (n + 2 * l.length) _ a2.wired a2.src a2.dst h.rsNodup hrm hout
    have hsum := sumEdges_eq h.ssNodup h.rsNodup (n + 2 * l.length)
    have hlt : ∀ r ∈ rs, (l.length + 1) * rs.idxOf r + (l.length + 1) ≤ (l.length + 1) * rs.length := by
      intro r hr
      have hi := List.idxOf_lt_length_of_mem hr
      rw [← Nat.mul_succ]
      exact Nat.mul_le_mul_left _ hi
    obtain ⟨g', c1, c2⟩ := h.shape (m := n + 2 * l.length) (k := l.length + 1) (E := sumEdges (n + 2 * l.length) l.length rs)
      (rd := fun s r => n + 2 * l.length + (l.length + 1) * rs.idxOf r + 1 + l.idxOf s) rfl (by omega) a2 a3 b2 rfl (by
        intro e he
        obtain ⟨j, -, he⟩ := List.mem_flatMap.1 he
        obtain ⟨q, -, rfl⟩ := List.mem_map.1 he
        simp only
        omega) (by
        intro s hs r hr
        have hi := List.idxOf_lt_length_of_mem hr
        have hi2 := List.idxOf_lt_length_of_mem hs
        have := hlt r hr
        refine ⟨by omega, by omega, ?_⟩
        exact (b3 _ hi).2 _ hi2) (by
        intro s _ r hr q hq e
        exact (List.idxOf_inj hr).1 (Nat.eq_of_mul_eq_mul_left (by omega : 0 < l.length + 1) (by omega))) (by
        intro x hx1 hx2
        have hx3 : x - (n + 2 * l.length) < (l.length + 1) * rs.length := by omega
        have hi : (x - (n + 2 * l.length)) / (l.length + 1) < rs.length := by
          rw [Nat.div_lt_iff_lt_mul (by omega), Nat.mul_comm rs.length]
          exact hx3
        refine ⟨rs[(x - (n + 2 * l.length)) / (l.length + 1)], List.getElem_mem _, ?_⟩
        have e := Nat.div_add_mod (x - (n + 2 * l.length)) (l.length + 1)
        have e2 := Nat.mod_lt (x - (n + 2 * l.length)) (by omega : l.length + 1 > 0)
        rw [sourceOf, if_pos (List.getElem_mem _)]
        simp only [h.rsNodup.idxOf_getElem _ hi]
        by_cases h0 : (x - (n + 2 * l.length)) % (l.length + 1) = 0
        · left; omega
        · right
          have hj : (x - (n + 2 * l.length)) % (l.length + 1) - 1 < l.length := by omega
          refine ⟨l[(x - (n + 2 * l.length)) % (l.length + 1) - 1], List.getElem_mem _, ?_⟩
          rw [h.ssNodup.idxOf_getElem _ hj]
          omega) (.inr ⟨hsum, fun r hr => by
            have hi := List.idxOf_lt_length_of_mem hr
            rw [sourceOf, if_pos hr]
            exact (b3 _ hi).1⟩)
    refine ⟨g', _, _, _, _, _, _, ?_, c2⟩
    have e : g.remapName n l rs = do
        let g ← g.writeAll n l
        let (g, m) ← g.readAll n l (n + 2 * l.length) rs
        let g ← g.removeObjs l
        let g ← g.removeObjs rs
        return (g, m) := rfl
    rw [e]
    simp only [a1, b1, bind, Option.bind] at c1 ⊢
    exact c1

end Verif.Reduce
