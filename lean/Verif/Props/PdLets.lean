import Verif.PdLets
/-!
C44: specification and proofs.
-/
namespace Verif.PdLets

/-! ## Specification -/

/-- `a` is to the left of `b`; of two objects at the same position, the one that comes first in the file counts as left -/
def LeftOf (file : List Obj) (a b : Obj) : Prop := a.x < b.x ∨ a.x = b.x ∧ List.Sublist [a, b] file

/-- the ids `ids` are those of the objects with property `p`, from left to right -/
def LeftToRight (file : List Obj) (p : Obj → Bool) (ids : List Nat) : Prop :=
  ∃ l : List Obj, ids = l.map (·.id) ∧ l.Perm (file.filter p) ∧ l.Pairwise (LeftOf file)

/-! ## Sorting -/

section
variable {α : Type} {key : α → Int}

theorem insertBy_perm (o : α) (l : List α) : (insertBy key o l).Perm (l ++ [o]) := by
  induction l with
  | nil => exact .refl _
  | cons a l ih =>
    unfold insertBy
    split
    · exact .cons _ ih
    · exact (List.perm_append_comm (l₁ := [o]) (l₂ := a :: l))

theorem mem_insertBy {o a : α} {l : List α} : a ∈ insertBy key o l ↔ a ∈ l ∨ a = o := by
  rw [(insertBy_perm o l).mem_iff]; simp

/-- inserting keeps any relation that fits the order of the keys -/
theorem insertBy_pairwise {R : α → α → Prop} {o : α} {l : List α} (hl : l.Pairwise R)
    (hs : l.Pairwise fun a b => key a ≤ key b)
    (h1 : ∀ a ∈ l, key a ≤ key o → R a o) (h2 : ∀ a ∈ l, key o < key a → R o a) :
    (insertBy key o l).Pairwise R := by
  induction l with
  | nil => simp [insertBy]
  | cons a l ih =>
    rw [List.pairwise_cons] at hl hs
    unfold insertBy
    split
    · rename_i h
      refine List.pairwise_cons.mpr ⟨fun b hb => ?_, ih hl.2 hs.2 (fun b hb => h1 b (by simp [hb])) (fun b hb => h2 b (by simp [hb]))⟩
      rcases mem_insertBy.mp hb with hb | rfl
      · exact hl.1 b hb
      · exact h1 a (by simp) h
    · rename_i h
      refine List.pairwise_cons.mpr ⟨fun b hb => ?_, List.pairwise_cons.mpr hl⟩
      refine h2 b hb ?_
      rcases List.mem_cons.mp hb with rfl | hb
      · omega
      · have := hs.1 b hb
        omega

theorem insertBy_sorted {o : α} {l : List α} (hs : l.Pairwise fun a b => key a ≤ key b) :
    (insertBy key o l).Pairwise fun a b => key a ≤ key b :=
  insertBy_pairwise hs hs (fun _ _ h => h) (fun _ _ h => by omega)

theorem insertBy_last {o : α} {l : List α} (h : ∀ a ∈ l, key a ≤ key o) : insertBy key o l = l ++ [o] := by
  induction l with
  | nil => rfl
  | cons a l ih =>
    unfold insertBy
    rw [if_pos (h a (by simp)), ih (fun b hb => h b (by simp [hb]))]
    rfl

theorem foldl_insertBy {l acc : List α} (h : (acc ++ l).Pairwise fun a b => key a ≤ key b) :
    l.foldl (fun acc o => insertBy key o acc) acc = acc ++ l := by
  induction l generalizing acc with
  | nil => simp
  | cons o l ih =>
    rw [List.foldl_cons, insertBy_last]
    · rw [ih (by simpa using h)]; simp
    · intro a ha
      exact (List.pairwise_append.mp h).2.2 a ha o (by simp)

/-- one more element for a sorted list -/
theorem sortBy_snoc {l : List α} (o : α) (h : l.Pairwise fun a b => key a ≤ key b) : sortBy key (l ++ [o]) = insertBy key o l := by
  unfold sortBy
  rw [List.foldl_append, foldl_insertBy (acc := []) (l := l) (by simpa using h)]
  rfl

/-- two strictly sorted lists of the same elements are equal -/
theorem eq_of_perm {l l' : List α} (hp : l.Perm l') (h : l.Pairwise fun a b => key a < key b)
    (h' : l'.Pairwise fun a b => key a < key b) : l = l' := by
  induction l generalizing l' with
  | nil => exact (List.perm_nil.mp hp.symm).symm
  | cons a l ih =>
    cases l' with
    | nil => exact absurd hp.length_eq (by simp)
    | cons b l' =>
      rw [List.pairwise_cons] at h h'
      have hab : a = b := by
        rcases List.mem_cons.mp (hp.mem_iff.mp (List.mem_cons_self (a := a) (l := l))) with e | m
        · exact e
        · rcases List.mem_cons.mp (hp.mem_iff.mpr (List.mem_cons_self (a := b) (l := l'))) with e | m'
          · exact e.symm
          · have := h.1 b m'
            have := h'.1 a m
            omega
      subst hab
      rw [ih (List.Perm.cons_inv hp) h.2 h'.2]

end

/-! ## The Pd side -/

theorem enumerate_out {l : List Obj} {s : Nat} {idx : Nat → Nat} {k : Nat} (h : ∀ o ∈ l, o.id ≠ k) : enumerate s l idx k = idx k := by
  induction l generalizing s idx with
  | nil => rfl
  | cons o l ih =>
    unfold enumerate
    rw [ih (fun a ha => h a (by simp [ha])), if_neg fun e => h o (by simp) e.symm]

theorem enumerate_in {l : List Obj} {s : Nat} {idx : Nat → Nat} (hn : (l.map (·.id)).Nodup) {i : Nat} {o : Obj} (h : l[i]? = some o) :
    enumerate s l idx o.id = s + i := by
  induction l generalizing s idx i with
  | nil => simp at h
  | cons a l ih =>
    rw [List.map_cons, List.nodup_cons] at hn
    unfold enumerate
    cases i with
    | zero =>
      cases h
      rw [enumerate_out]
      · simp
      · intro b hb e
        exact hn.1 (e ▸ List.mem_map_of_mem (f := Obj.id) hb)
    | succ i =>
      rw [ih hn.2 (by simpa using h)]
      omega

theorem isIn_out {k : Kind} (h : k.isIn = true) : k.isOut = false := by cases k <;> simp [Kind.isIn, Kind.isOut] at *

/-- what holds after every object of the file -/
structure Inv (file : List Obj) (g : Graph) : Prop where
  objs : g.objs = file
  inPerm : g.inlets.Perm (file.filter (·.kind.isIn))
  outPerm : g.outlets.Perm (file.filter (·.kind.isOut))
  inLeft : g.inlets.Pairwise (LeftOf file)
  outLeft : g.outlets.Pairwise (LeftOf file)
  inIdx : ∀ i o, g.inlets[i]? = some o → g.letIndex o.id = i
  outIdx : ∀ i o, g.outlets[i]? = some o → g.letIndex o.id = i

theorem LeftOf.le {file : List Obj} {l : List Obj} (h : l.Pairwise (LeftOf file)) : l.Pairwise fun a b => a.x ≤ b.x :=
  h.imp fun h => by rcases h with h | h <;> omega

theorem left_snoc {file : List Obj} {o : Obj} {l : List Obj} (h : l.Pairwise (LeftOf file)) : l.Pairwise (LeftOf (file ++ [o])) :=
  h.imp fun h => h.imp_right fun h => ⟨h.1, h.2.trans (List.sublist_append_left _ _)⟩

theorem insert_left {file l : List Obj} {o : Obj} (h : l.Pairwise (LeftOf file)) (hm : ∀ a ∈ l, a ∈ file) :
    (insertBy Obj.x o l).Pairwise (LeftOf (file ++ [o])) := by
  refine insertBy_pairwise (left_snoc h) (LeftOf.le h) (fun a ha hle => ?_) (fun a _ hlt => .inl hlt)
  rcases Int.lt_or_eq_of_le hle with hlt | he
  · exact .inl hlt
  · exact .inr ⟨he, List.Sublist.append (l₁ := [a]) (List.singleton_sublist.mpr (hm a ha)) (List.Sublist.refl [o])⟩

theorem perm_ids {l l' : List Obj} (h : l.Perm l') (hn : (l'.map (·.id)).Nodup) : (l.map (·.id)).Nodup :=
  (h.map _).nodup_iff.mpr hn

theorem ne_ids {l : List Obj} (hn : (l.map (·.id)).Nodup) {a b : Obj} (ha : a ∈ l) (hb : b ∈ l) (hab : a ≠ b) : a.id ≠ b.id := by
  induction l with
  | nil => simp at ha
  | cons c l ih =>
    rw [List.map_cons, List.nodup_cons] at hn
    rcases List.mem_cons.mp ha with e1 | ha'
    · rcases List.mem_cons.mp hb with e2 | hb'
      · exact absurd (e1.trans e2.symm) hab
      · exact fun e => hn.1 (e1 ▸ e ▸ List.mem_map_of_mem (f := Obj.id) hb')
    · rcases List.mem_cons.mp hb with e2 | hb'
      · exact fun e => hn.1 (e2 ▸ e ▸ List.mem_map_of_mem (f := Obj.id) ha')
      · exact ih hn.2 ha' hb'

theorem filter_ids {file : List Obj} (p : Obj → Bool) (hn : (file.map (·.id)).Nodup) : ((file.filter p).map (·.id)).Nodup :=
  List.Nodup.sublist ((List.filter_sublist).map _) hn

theorem inv_step {file : List Obj} {g : Graph} {o : Obj} (hn : ((file ++ [o]).map (·.id)).Nodup) (h : Inv file g) :
    Inv (file ++ [o]) (addObject g o) := by
  have hno : ∀ a ∈ file, a.id ≠ o.id := by
    intro a ha e
    rw [List.map_append, List.nodup_append] at hn
    exact hn.2.2 a.id (List.mem_map_of_mem ha) o.id (by simp) e
  have hnf : (file.map (·.id)).Nodup := by
    rw [List.map_append, List.nodup_append] at hn
    exact hn.1
  have mIn : ∀ a ∈ g.inlets, a ∈ file ∧ a.kind.isIn = true := fun a ha => by
    simpa using h.inPerm.mem_iff.mp ha
  have mOut : ∀ a ∈ g.outlets, a ∈ file ∧ a.kind.isOut = true := fun a ha => by
    simpa using h.outPerm.mem_iff.mp ha
  unfold addObject
  by_cases hi : o.kind.isIn = true
  · have ho : o.kind.isOut = false := isIn_out hi
    simp only [hi, if_true]
    rw [sortBy_snoc o (LeftOf.le h.inLeft)]
    have hperm : (insertBy Obj.x o g.inlets).Perm ((file ++ [o]).filter (·.kind.isIn)) := by
      rw [List.filter_append, show [o].filter (·.kind.isIn) = [o] by simp [hi]]
      exact (insertBy_perm o _).trans (h.inPerm.append_right _)
    refine ⟨by simp [h.objs], hperm, ?_, insert_left h.inLeft fun a ha => (mIn a ha).1, left_snoc h.outLeft, ?_, ?_⟩
    · rw [List.filter_append, show [o].filter (·.kind.isOut) = [] by simp [ho], List.append_nil]
      exact h.outPerm
    · intro i a ha
      simp only at ha ⊢
      rw [enumerate_in (perm_ids hperm (filter_ids _ hn)) ha]
      omega
    · intro i a ha
      simp only at ha ⊢
      rw [enumerate_out]
      · exact h.outIdx i a ha
      · intro b hb e
        have ma := mOut a (List.mem_of_getElem? ha)
        rcases mem_insertBy.mp hb with hb | rfl
        · have mb := mIn b hb
          have : a = b := by
            by_cases hab : a = b
            · exact hab
            · exact absurd e (ne_ids hnf mb.1 ma.1 (Ne.symm hab))
          subst this
          rw [isIn_out mb.2] at ma
          exact absurd ma.2 (by simp)
        · exact hno a ma.1 e.symm
  · simp only [hi, Bool.false_eq_true, if_false]
    by_cases ho : o.kind.isOut = true
    · simp only [ho, if_true]
      rw [sortBy_snoc o (LeftOf.le h.outLeft)]
      have hperm : (insertBy Obj.x o g.outlets).Perm ((file ++ [o]).filter (·.kind.isOut)) := by
        rw [List.filter_append, show [o].filter (·.kind.isOut) = [o] by simp [ho]]
        exact (insertBy_perm o _).trans (h.outPerm.append_right _)
      refine ⟨by simp [h.objs], ?_, hperm, left_snoc h.inLeft, insert_left h.outLeft fun a ha => (mOut a ha).1, ?_, ?_⟩
      · rw [List.filter_append, show [o].filter (·.kind.isIn) = [] by simp [hi], List.append_nil]
        exact h.inPerm
      · intro i a ha
        simp only at ha ⊢
        rw [enumerate_out]
        · exact h.inIdx i a ha
        · intro b hb e
          have ma := mIn a (List.mem_of_getElem? ha)
          rcases mem_insertBy.mp hb with hb | rfl
          · have mb := mOut b hb
            have : a = b := by
              by_cases hab : a = b
              · exact hab
              · exact absurd e (ne_ids hnf mb.1 ma.1 (Ne.symm hab))
            subst this
            rw [isIn_out ma.2] at mb
            exact absurd mb.2 (by simp)
          · exact hno a ma.1 e.symm
      · intro i a ha
        simp only at ha ⊢
        rw [enumerate_in (perm_ids hperm (filter_ids _ hn)) ha]
        omega
    · simp only [ho, Bool.false_eq_true, if_false]
      refine ⟨by simp [h.objs], ?_, ?_, left_snoc h.inLeft, left_snoc h.outLeft, h.inIdx, h.outIdx⟩
      · rw [List.filter_append, show [o].filter (·.kind.isIn) = [] by simp [hi], List.append_nil]
        exact h.inPerm
      · rw [List.filter_append, show [o].filter (·.kind.isOut) = [] by simp [ho], List.append_nil]
        exact h.outPerm

theorem inv_foldl {done file : List Obj} {g : Graph} (hn : ((done ++ file).map (·.id)).Nodup) (h : Inv done g) :
    Inv (done ++ file) (file.foldl addObject g) := by
  induction file generalizing done g with
  | nil => simpa using h
  | cons o file ih =>
    rw [List.foldl_cons]
    have e : done ++ o :: file = (done ++ [o]) ++ file := by simp
    rw [e] at hn ⊢
    refine ih hn (inv_step ?_ h)
    rw [List.map_append, List.nodup_append] at hn
    exact hn.1

theorem inv_parse {file : List Obj} (hn : (file.map (·.id)).Nodup) : Inv file (parse file) := by
  have := inv_foldl (done := []) (g := empty) (by simpa using hn)
    ⟨rfl, .refl _, .refl _, .nil, .nil, by simp [empty], by simp [empty]⟩
  unfold parse
  simpa using this

/-! ## The hv2ir side -/

theorem hvAdd_foldl (objs : List HvObj) (s : List HvObj × List HvObj)
    (h1 : s.1.Pairwise fun a b => a.index ≤ b.index) (h2 : s.2.Pairwise fun a b => a.index ≤ b.index) :
    (objs.foldl hvAdd s).1.Perm (s.1 ++ objs.filter (·.kind.isIn)) ∧ (objs.foldl hvAdd s).2.Perm (s.2 ++ objs.filter (·.kind.isOut)) ∧
      (objs.foldl hvAdd s).1.Pairwise (fun a b => a.index ≤ b.index) ∧ (objs.foldl hvAdd s).2.Pairwise fun a b => a.index ≤ b.index := by
  induction objs generalizing s with
  | nil => simpa using ⟨h1, h2⟩
  | cons o objs ih =>
    rw [List.foldl_cons]
    by_cases hi : o.kind.isIn = true
    · have ho := isIn_out hi
      rw [show hvAdd s o = (sortBy HvObj.index (s.1 ++ [o]), s.2) by simp [hvAdd, hi]]
      rw [sortBy_snoc o h1]
      obtain ⟨a, b, c⟩ := ih (insertBy HvObj.index o s.1, s.2) (insertBy_sorted h1) h2
      refine ⟨?_, by simpa [ho] using b, c⟩
      refine a.trans ?_
      simp only [List.filter_cons, hi, if_true]
      have := (insertBy_perm (key := HvObj.index) o s.1).append_right (objs.filter (·.kind.isIn))
      simpa using this
    · by_cases ho : o.kind.isOut = true
      · rw [show hvAdd s o = (s.1, sortBy HvObj.index (s.2 ++ [o])) by simp [hvAdd, hi, ho]]
        rw [sortBy_snoc o h2]
        obtain ⟨a, b, c⟩ := ih (s.1, insertBy HvObj.index o s.2) h1 (insertBy_sorted h2)
        refine ⟨by simpa [hi] using a, ?_, c⟩
        refine b.trans ?_
        simp only [List.filter_cons, ho, if_true]
        have := (insertBy_perm (key := HvObj.index) o s.2).append_right (objs.filter (·.kind.isOut))
        simpa using this
      · rw [show hvAdd s o = s by simp [hvAdd, hi, ho]]
        obtain ⟨a, b, c⟩ := ih s h1 h2
        exact ⟨by simpa [hi] using a, by simpa [ho] using b, c⟩

/-- a list in which element `i` has index `i` is strictly sorted -/
theorem indexed_sorted {l : List HvObj} (h : ∀ (i : Nat) o, l[i]? = some o → o.index = i) : l.Pairwise fun a b => a.index < b.index := by
  rw [List.pairwise_iff_getElem]
  intro i j hi hj hij
  have a := h i _ (List.getElem?_eq_getElem hi)
  have b := h j _ (List.getElem?_eq_getElem hj)
  omega

theorem strict_of_perm {l l' : List HvObj} (hp : l.Perm l') (h' : l'.Pairwise fun a b => a.index < b.index)
    (h : l.Pairwise fun a b => a.index ≤ b.index) : l.Pairwise fun a b => a.index < b.index := by
  have hne : l.Pairwise fun a b => a.index ≠ b.index :=
    (hp.symm.pairwise_iff fun h => Ne.symm h).mp (h'.imp fun h => by omega)
  exact (h.and hne).imp fun ⟨a, b⟩ => by omega

theorem read_lets {file : List Obj} (hn : (file.map (·.id)).Nodup) :
    inlets file = (parse file).inlets.map (·.id) ∧ outlets file = (parse file).outlets.map (·.id) := by
  have I := inv_parse hn
  obtain ⟨p1, p2, s1, s2⟩ := hvAdd_foldl (toHv (parse file)) ([], []) .nil .nil
  let f : Obj → HvObj := fun o => ⟨o.id, o.kind, (parse file).letIndex o.id⟩
  have ft : toHv (parse file) = file.map f := by unfold toHv; rw [I.objs]
  have f1 : (toHv (parse file)).filter (·.kind.isIn) = (file.filter (·.kind.isIn)).map f := by rw [ft, List.filter_map]; rfl
  have f2 : (toHv (parse file)).filter (·.kind.isOut) = (file.filter (·.kind.isOut)).map f := by rw [ft, List.filter_map]; rfl
  rw [List.nil_append, f1] at p1
  rw [List.nil_append, f2] at p2
  have q1 := p1.trans (I.inPerm.map f).symm
  have q2 := p2.trans (I.outPerm.map f).symm
  have x1 : ((parse file).inlets.map f).Pairwise fun a b => a.index < b.index := by
    refine indexed_sorted fun i o h => ?_
    rw [List.getElem?_map, Option.map_eq_some_iff] at h
    obtain ⟨a, ha, rfl⟩ := h
    simp [f, I.inIdx i a ha]
  have x2 : ((parse file).outlets.map f).Pairwise fun a b => a.index < b.index := by
    refine indexed_sorted fun i o h => ?_
    rw [List.getElem?_map, Option.map_eq_some_iff] at h
    obtain ⟨a, ha, rfl⟩ := h
    simp [f, I.outIdx i a ha]
  unfold inlets outlets hvRead
  rw [eq_of_perm q1 (strict_of_perm q1 x1 s1) x1, eq_of_perm q2 (strict_of_perm q2 x2 s2) x2]
  simp [f, Function.comp_def]

/-! ## C44 -/

/-- The inlets (outlets) of the compiled subgraph are the inlets (outlets) of the subpatch from left to right. -/
theorem lets_left_to_right {file : List Obj} (hn : (file.map (·.id)).Nodup) :
    LeftToRight file (·.kind.isIn) (inlets file) ∧ LeftToRight file (·.kind.isOut) (outlets file) := by
  have I := inv_parse hn
  obtain ⟨a, b⟩ := read_lets hn
  exact ⟨⟨_, a, I.inPerm, I.inLeft⟩, ⟨_, b, I.outPerm, I.outLeft⟩⟩

/-- The order of the objects in the file does not matter if no two inlets (outlets) have the same position. -/
theorem lets_any_order {file file' : List Obj} (hn : (file.map (·.id)).Nodup) (hp : file.Perm file') :
    (((file.filter (·.kind.isIn)).map (·.x)).Nodup → inlets file = inlets file') ∧
      (((file.filter (·.kind.isOut)).map (·.x)).Nodup → outlets file = outlets file') := by
  have I := inv_parse hn
  have hn' := ((hp.map (·.id)).nodup_iff).mp hn
  have I' := inv_parse hn'
  obtain ⟨a, b⟩ := read_lets hn
  obtain ⟨a', b'⟩ := read_lets hn'
  have key : ∀ {l l' : List Obj} {p : Obj → Bool}, l.Perm (file.filter p) → l'.Perm (file'.filter p) → l.Pairwise (LeftOf file) →
      l'.Pairwise (LeftOf file') → ((file.filter p).map (·.x)).Nodup → l = l' := by
    intro l l' p h1 h2 h3 h4 hx
    have strict : ∀ {m : List Obj} {f : List Obj}, m.Perm (file.filter p) → m.Pairwise (LeftOf f) → m.Pairwise fun a b => a.x < b.x := by
      intro m f hm hl
      have hx' : (m.map (·.x)).Nodup := ((hm.map _).nodup_iff).mpr hx
      have hne : m.Pairwise fun a b => a.x ≠ b.x := List.pairwise_map.mp hx'
      exact ((LeftOf.le hl).and hne).imp fun ⟨a, b⟩ => by omega
    have h2' := h2.trans (hp.symm.filter p)
    exact eq_of_perm (h1.trans h2'.symm) (strict h1 h3) (strict h2' h4)
  refine ⟨fun hx => ?_, fun hx => ?_⟩
  · rw [a, a', key I.inPerm I'.inPerm I.inLeft I'.inLeft hx]
  · rw [b, b', key I.outPerm I'.outPerm I.outLeft I'.outLeft hx]

/-- A connection to inlet `i` is a signal connection exactly if the `i`-th inlet from the left is an `inlet~`; connections to
an inlet that does not exist are refused. -/
theorem connection_type {file : List Obj} (hn : (file.map (·.id)).Nodup) (i : Nat) :
    (∀ o ∈ file, (inlets file)[i]? = some o.id → inletIsSignal (parse file) i = some (decide (o.kind = .inletSig))) ∧
      ((inlets file)[i]? = none → inletIsSignal (parse file) i = none) := by
  have I := inv_parse hn
  rw [(read_lets hn).1]
  unfold inletIsSignal
  refine ⟨fun o ho h => ?_, fun h => ?_⟩
  · rw [List.getElem?_map, Option.map_eq_some_iff] at h
    obtain ⟨a, ha, e⟩ := h
    have ma : a ∈ file := (List.mem_filter.mp (I.inPerm.mem_iff.mp (List.mem_of_getElem? ha))).1
    have : a = o := by
      by_cases hab : a = o
      · exact hab
      · exact absurd e (ne_ids hn ma ho hab)
    subst this
    rw [ha]; rfl
  · rw [List.getElem?_map, Option.map_eq_none_iff] at h
    rw [h]; rfl

/-- a concrete case: the file order is not the order from left to right -/
example : let f : List Obj := [⟨7, .inlet, 30⟩, ⟨8, .outletSig, 5⟩, ⟨9, .inletSig, 10⟩, ⟨3, .other, 0⟩, ⟨4, .inlet, 20⟩, ⟨5, .outlet, 1⟩]
    (f.map (·.id)).Nodup ∧ inlets f = [9, 4, 7] ∧ outlets f = [5, 8] := by decide

end Verif.PdLets
