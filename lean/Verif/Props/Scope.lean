import Verif.Scope
/-!
C37: specification and proofs.
-/
namespace Verif.Scope

/-! ## Specification -/

/-- building a graph: objects are added to, and removed from, graphs of the hierarchy -/
inductive Op
  | add (g : Graph) (o : Obj)
  | remove (o : Obj)

/-- the program -/
def run : List Op → Reg → Option Reg
  | [], R => some R
  | .add g o :: ops, R => match R.add g o with | none => none | some R => run ops R
  | .remove o :: ops, R => match R.remove o.graph o with | none => none | some R => run ops R

/-- the objects that have a name -/
def Named (o : Obj) : Prop := o.typ ≠ .other ∧ (o.typ = .var → o.name ≠ none)

instance (o : Obj) : Decidable (Named o) := by unfold Named; infer_instance

/-- the named objects that exist: added and not removed.  (Tables and variables stay known when they are removed: they are
replaced by an equivalent object.) -/
def live : List Op → List Obj → List Obj
  | [], L => L
  | .add g o :: ops, L => live ops (if Named o then L ++ [{ o with graph := g }] else L)
  | .remove o :: ops, L => live ops (if o.typ ∈ [.receive, .irReceive, .send, .irSend] then L.erase o else L)

/-- graph `h` is `g` or encloses it -/
def Encloses (h g : Graph) : Prop := h <:+ g

/-- which objects can be seen from the graph `g` -/
def Visible (o : Obj) (g : Graph) : Prop :=
  match o.scope with
  | .priv => o.graph = g
  | .prot => Encloses (above o.graph) g
  | .pub => True
  | .other => False

/-- the objects that a reference to `name` can mean -/
def Candidate (L : List Obj) (g : Graph) (name : String) (ts : List Typ) (o : Obj) : Prop :=
  o ∈ L ∧ o.name = some name ∧ o.typ ∈ ts ∧ Visible o g

/-- the graph to which an object belongs -/
def belongs (o : Obj) : Graph :=
  match o.scope with
  | .priv => if o.static ∧ o.typ ∈ [.table, .irTable, .var] then [] else o.graph
  | .prot => above o.graph
  | _ => []

/-! ## Proofs -/

def entry (o : Obj) : Entry := ⟨belongs o, o.name.getD "", o⟩

theorem entry_inj {a b : Obj} (h : entry a = entry b) : a = b := by
  have := congrArg Entry.obj h
  exact this

/-- what is known of registered objects -/
structure Good (o : Obj) : Prop where
  name : o.name ≠ none
  scope : o.scope = .other → o.static = true ∧ o.typ ∈ [.table, .irTable, .var]

theorem place_eq {o : Obj} {st : Bool} {h : Graph} (hs : st = decide (o.static ∧ o.typ ∈ [Typ.table, .irTable, .var]))
    (hp : place o.graph o st = some h) : h = belongs o ∧ (o.scope = .other → o.static = true ∧ o.typ ∈ [.table, .irTable, .var]) := by
  unfold place at hp
  unfold belongs
  rcases hsc : o.scope with _ | _ | _ | _ <;> simp only [hsc, reduceCtorEq, false_and, true_and, false_or, or_false, true_or, if_true, if_false, false_implies, and_true] at hp ⊢
  · by_cases hst : o.static = true ∧ o.typ ∈ [Typ.table, .irTable, .var]
    · rw [if_pos hst]
      rw [decide_eq_true hst] at hs
      subst hs
      simpa [root] using hp.symm
    · rw [if_neg hst]
      rw [decide_eq_false hst] at hs
      subst hs
      simpa using hp.symm
  · simpa using hp.symm
  · simpa [root] using hp.symm
  · by_cases hst : o.static = true ∧ o.typ ∈ [Typ.table, .irTable, .var]
    · rw [decide_eq_true hst] at hs
      subst hs
      exact ⟨by simpa [root] using hp.symm, fun _ => hst⟩
    · rw [decide_eq_false hst] at hs
      subst hs
      simp at hp

theorem mode_none {o : Obj} (h : o.mode = none) : ¬Named o := by
  unfold Obj.mode at h
  unfold Named
  rcases ht : o.typ <;> simp only [ht] at h <;> simp_all

theorem mode_some {o : Obj} {st un : Bool} (h : o.mode = some (st, un)) :
    Named o ∧ st = decide (o.static ∧ o.typ ∈ [Typ.table, .irTable, .var]) ∧ (st = true → un = true) ∧
      un = decide (o.typ ∈ [Typ.table, .irTable, .var]) := by
  unfold Obj.mode at h
  unfold Named
  rcases ht : o.typ <;> simp only [ht] at h
  case var =>
    split at h
    · simp at h
    · obtain ⟨rfl, rfl⟩ := Prod.mk.inj (Option.some.inj h)
      simp_all
  all_goals
    first
    | (obtain ⟨rfl, rfl⟩ := Prod.mk.inj (Option.some.inj h); simp)
    | simp at h

theorem add_eq {R R' : Reg} {g : Graph} {o : Obj} (h : R.add g o = some R') :
    (¬Named o ∧ R' = R) ∨
    (Named o ∧ Good { o with graph := g } ∧ R' = R ++ [entry { o with graph := g }] ∧
      (o.typ ∈ [.table, .irTable, .var] → R.objects (belongs { o with graph := g }) (o.name.getD "") [o.typ] = [])) := by
  unfold Reg.add at h
  simp only at h
  generalize hq : ({ o with graph := g } : Obj) = q at h ⊢
  have hn : Named o ↔ Named q := by subst hq; rfl
  have hty : o.typ = q.typ := by subst hq; rfl
  have hna : o.name = q.name := by subst hq; rfl
  have hg : g = q.graph := by subst hq; rfl
  rw [hn, hty, hna]
  rw [hg, hna] at h
  match hm : q.mode with
  | none =>
    rw [hm] at h
    exact .inl ⟨mode_none hm, (Option.some.inj h).symm⟩
  | some (st, un) =>
    rw [hm] at h
    simp only at h
    obtain ⟨hnamed, hst, hun, hun'⟩ := mode_some hm
    match hname : q.name with
    | none => rw [hname] at h; simp at h
    | some name =>
      rw [hname] at h
      simp only at h
      match hp : place q.graph q st with
      | none => rw [hp] at h; simp at h
      | some k =>
        rw [hp] at h
        simp only at h
        obtain ⟨hk, hsc⟩ := place_eq hst hp
        unfold Reg.register at h
        simp only at h
        split at h
        · simp at h
        · rename_i hc
          split at h
          · rename_i hone
            simp only [Bool.and_eq_true, decide_eq_true_eq] at hone
            have := hun hone.2
            rw [this, hone.1] at hc
            simp at hc
          · refine .inr ⟨hnamed, ⟨by rw [hname]; simp, hsc⟩, ?_, ?_⟩
            · rw [← Option.some.inj h, entry, hname, hk]
              rfl
            · intro hu
              rw [hun', decide_eq_true hu] at hc
              simp only [Bool.true_and, Bool.or_eq_true, decide_eq_true_eq, not_or, Bool.and_eq_true] at hc
              have := hc.1
              rw [Option.getD_some, ← hk]
              exact List.eq_nil_of_length_eq_zero (by omega)

theorem remove_eq {R R' : Reg} {o : Obj} (h : R.remove o.graph o = some R') :
    R' = if o.typ ∈ [.receive, .irReceive, .send, .irSend] then R.erase (entry o) else R := by
  unfold Reg.remove at h
  have key : o.typ ∈ [Typ.receive, .irReceive, .send, .irSend] →
      (match o.name with
        | none => none
        | some name =>
          match place o.graph o false with
          | none => none
          | some h => if ⟨h, name, o⟩ ∈ R then some (R.erase ⟨h, name, o⟩) else none) = some R' → R' = R.erase (entry o) := by
    intro ht h
    match hname : o.name with
    | none => rw [hname] at h; simp at h
    | some name =>
      rw [hname] at h
      simp only at h
      match hp : place o.graph o false with
      | none => rw [hp] at h; simp at h
      | some k =>
        rw [hp] at h
        simp only at h
        have hst : false = decide (o.static ∧ o.typ ∈ [Typ.table, .irTable, .var]) := by
          rw [eq_comm, decide_eq_false_iff_not]
          rintro ⟨_, h2⟩
          rcases ho : o.typ <;> simp_all
        obtain ⟨hk, _⟩ := place_eq hst hp
        split at h
        · rw [← Option.some.inj h, entry, hname, hk]
          rfl
        · simp at h
  rcases ht : o.typ <;> simp only [ht] at h key <;> simp only [List.mem_cons, reduceCtorEq, true_or, or_true, if_true, if_false, List.not_mem_nil, or_false] at key ⊢
  all_goals first
    | exact key trivial h
    | exact (Option.some.inj h).symm

theorem erase_map (L : List Obj) (o : Obj) : (L.map entry).erase (entry o) = (L.erase o).map entry := by
  induction L with
  | nil => rfl
  | cons a L ih =>
    by_cases e : a = o
    · subst e; simp
    · have e' : entry a ≠ entry o := fun h => e (entry_inj h)
      simp [List.erase_cons, e, e', ih]

/-- the dictionaries hold exactly the live objects, each at the graph to which it belongs -/
theorem run_eq (ops : List Op) (L : List Obj) (R : Reg) (h : run ops (L.map entry) = some R) (hL : ∀ o ∈ L, Good o) :
    R = (live ops L).map entry ∧ ∀ o ∈ live ops L, Good o := by
  induction ops generalizing L with
  | nil => exact ⟨(Option.some.inj h).symm, hL⟩
  | cons op ops ih =>
    match op, h with
    | .add g o, h =>
      rw [run] at h
      match ha : Reg.add (L.map entry) g o with
      | none => rw [ha] at h; simp at h
      | some R' =>
        rw [ha] at h
        simp only at h
        rw [live]
        rcases add_eq ha with ⟨hn, rfl⟩ | ⟨hn, hg, rfl, _⟩
        · rw [if_neg hn]; exact ih L h hL
        · rw [if_pos hn]
          refine ih _ (by simpa using h) ?_
          intro x hx
          rcases List.mem_append.mp hx with hx | hx
          · exact hL x hx
          · rw [List.mem_singleton.mp hx]; exact hg
    | .remove o, h =>
      rw [run] at h
      match ha : Reg.remove (L.map entry) o.graph o with
      | none => rw [ha] at h; simp at h
      | some R' =>
        rw [ha] at h
        simp only at h
        have := remove_eq ha
        rw [live]
        by_cases ht : o.typ ∈ [Typ.receive, .irReceive, .send, .irSend]
        · rw [if_pos ht, erase_map] at this
          rw [if_pos ht]
          subst this
          exact ih _ h fun x hx => hL x (List.mem_of_mem_erase hx)
        · rw [if_neg ht] at this
          rw [if_neg ht]
          subst this
          exact ih _ h hL

theorem mem_level {L : List Obj} (hL : ∀ o ∈ L, Good o) {here loc : Graph} {name : String} {ts : List Typ} {o : Obj} :
    o ∈ Reg.level (L.map entry) here loc name ts ↔
      o ∈ L ∧ belongs o = here ∧ o.name = some name ∧ o.typ ∈ ts ∧ (o.scope = .priv → o.graph = loc) := by
  unfold Reg.level Reg.objects
  simp only [List.mem_filter, List.mem_map, Bool.and_eq_true, decide_eq_true_eq, List.contains_iff_mem, Bool.not_eq_true', Bool.and_eq_false_iff,
    decide_eq_false_iff_not, ne_eq, Decidable.not_not]
  constructor
  · rintro ⟨⟨e, ⟨⟨x, hx, rfl⟩, ⟨h1, h2⟩, h3⟩, rfl⟩, h4⟩
    have hn := (hL x hx).name
    refine ⟨hx, h1, ?_, h3, fun hp => h4.resolve_left fun h => h hp⟩
    obtain ⟨n, hn'⟩ := Option.ne_none_iff_exists'.mp hn
    have h2 : x.name.getD "" = name := h2
    show x.name = some name
    rw [hn'] at h2 ⊢
    exact congrArg some h2
  · rintro ⟨hx, hb, hn, ht, hp⟩
    refine ⟨⟨entry o, ⟨⟨o, hx, rfl⟩, ⟨hb, ?_⟩, ht⟩, rfl⟩, ?_⟩
    · show o.name.getD "" = name
      rw [hn]; rfl
    · by_cases h : o.scope = .priv
      · exact .inr (hp h)
      · exact .inl h

theorem mem_resolveFrom {L : List Obj} (hL : ∀ o ∈ L, Good o) {loc : Graph} {name : String} {ts : List Typ} {o : Obj} (here : Graph) :
    o ∈ Reg.resolveFrom (L.map entry) loc name ts here ↔
      o ∈ L ∧ belongs o <:+ here ∧ o.name = some name ∧ o.typ ∈ ts ∧ (o.scope = .priv → o.graph = loc) := by
  induction here with
  | nil =>
    rw [Reg.resolveFrom, mem_level hL]
    simp
  | cons x p ih =>
    rw [Reg.resolveFrom, List.mem_append, mem_level hL, ih, List.suffix_cons_iff]
    constructor
    · rintro (⟨h1, h2, h3⟩ | ⟨h1, h2, h3⟩)
      · exact ⟨h1, .inl h2, h3⟩
      · exact ⟨h1, .inr h2, h3⟩
    · rintro ⟨h1, h2 | h2, h3⟩
      · exact .inl ⟨h1, h2, h3⟩
      · exact .inr ⟨h1, h2, h3⟩

/-- no object has an unknown scope; (the code accepts an unknown scope for static tables and variables) -/
def Known (ops : List Op) : Prop := ∀ o ∈ live ops [], o.scope ≠ .other

theorem visible_iff {o : Obj} (ho : o.scope ≠ .other) (g : Graph) : Visible o g ↔ belongs o <:+ g ∧ (o.scope = .priv → o.graph = g) := by
  unfold Visible belongs Encloses
  rcases hs : o.scope with _ | _ | _ | _ <;> simp only [reduceCtorEq, false_implies, and_true, List.nil_suffix, true_implies, iff_true]
  · constructor
    · intro h
      refine ⟨?_, h⟩
      split
      · simp
      · rw [h]; exact List.suffix_refl g
    · exact fun h => h.2
  · exact absurd hs ho

/-! ## C37 -/

/-- A name refers to exactly the objects of that name that are visible: private objects from their own graph only,
protected objects from the graph around it and everything inside, and public ones from everywhere. -/
theorem resolve_visible {ops : List Op} {R : Reg} (h : run ops [] = some R) (hk : Known ops) (g : Graph) (name : String) (ts : List Typ) (o : Obj) :
    o ∈ R.resolve g name ts ↔ Candidate (live ops []) g name ts o := by
  obtain ⟨rfl, hL⟩ := run_eq ops [] R h (by simp)
  unfold Reg.resolve Candidate
  rw [mem_resolveFrom hL]
  constructor
  · rintro ⟨h1, h2, h3, h4, h5⟩
    exact ⟨h1, h3, h4, (visible_iff (hk o h1) g).mpr ⟨h2, h5⟩⟩
  · rintro ⟨h1, h3, h4, hv⟩
    obtain ⟨h2, h5⟩ := (visible_iff (hk o h1) g).mp hv
    exact ⟨h1, h2, h3, h4, h5⟩

theorem resolveFrom_sorted {L : List Obj} (hL : ∀ o ∈ L, Good o) {loc : Graph} {name : String} {ts : List Typ} (here : Graph) :
    (Reg.resolveFrom (L.map entry) loc name ts here).Pairwise fun a b => belongs b <:+ belongs a := by
  have lev : ∀ k, (Reg.level (L.map entry) k loc name ts).Pairwise fun a b => belongs b <:+ belongs a := by
    intro k
    rw [List.pairwise_iff_forall_sublist]
    intro a b hab
    have ha := (mem_level hL).mp (hab.subset (by simp : a ∈ [a, b]))
    have hb := (mem_level hL).mp (hab.subset (by simp : b ∈ [a, b]))
    rw [ha.2.1, hb.2.1]
    exact List.suffix_refl k
  induction here with
  | nil => exact lev []
  | cons x p ih =>
    rw [Reg.resolveFrom, List.pairwise_append]
    refine ⟨lev _, ih, fun a ha b hb => ?_⟩
    have ha := (mem_level hL).mp ha
    have hb := (mem_resolveFrom hL p).mp hb
    rw [ha.2.1]
    exact hb.2.1.trans (List.suffix_cons x p)

/-- The results are ordered from the innermost scope to the outermost one. -/
theorem resolve_innermost_first {ops : List Op} {R : Reg} (h : run ops [] = some R) (g : Graph) (name : String) (ts : List Typ) :
    (R.resolve g name ts).Pairwise fun a b => Encloses (belongs b) (belongs a) := by
  obtain ⟨rfl, hL⟩ := run_eq ops [] R h (by simp)
  exact resolveFrom_sorted hL g

theorem level_sublist (L : List Obj) (here loc : Graph) (name : String) (ts : List Typ) :
    (Reg.level (L.map entry) here loc name ts).Sublist L := by
  unfold Reg.level Reg.objects
  refine List.filter_sublist.trans ?_
  refine (List.filter_sublist.map _).trans ?_
  rw [List.map_map]
  have : (fun e : Entry => e.obj) ∘ entry = id := rfl
  rw [this, List.map_id]
  exact List.Sublist.refl L

/-- Objects of one scope come in the order in which they were added. -/
theorem resolve_scope_in_order {ops : List Op} {R : Reg} (h : run ops [] = some R) (g k : Graph) (name : String) (ts : List Typ) :
    ((R.resolve g name ts).filter fun o => belongs o = k).Sublist (live ops []) := by
  obtain ⟨rfl, hL⟩ := run_eq ops [] R h (by simp)
  generalize live ops [] = L at hL ⊢
  unfold Reg.resolve
  have none : ∀ p : Graph, ¬k <:+ p → (Reg.resolveFrom (L.map entry) g name ts p).filter (fun o => belongs o = k) = [] := by
    intro p hp
    rw [List.filter_eq_nil_iff]
    intro o ho
    have := (mem_resolveFrom hL p).mp ho
    simp only [decide_eq_true_eq]
    rintro rfl
    exact hp this.2.1
  suffices hs : ∀ p : Graph, ((Reg.resolveFrom (L.map entry) g name ts p).filter fun o => belongs o = k).Sublist L from hs g
  intro p
  induction p with
  | nil => exact List.filter_sublist.trans (level_sublist L _ _ _ _)
  | cons x p ih =>
    rw [Reg.resolveFrom, List.filter_append]
    by_cases e : k = x :: p
    · rw [none p, List.append_nil]
      · exact List.filter_sublist.trans (level_sublist L _ _ _ _)
      · intro hp
        have := hp.length_le
        rw [e] at this
        simp at this
        omega
    · have : (Reg.level (L.map entry) (x :: p) g name ts).filter (fun o => decide (belongs o = k)) = [] := by
        rw [List.filter_eq_nil_iff]
        intro o ho
        have := (mem_level hL).mp ho
        simp only [decide_eq_true_eq]
        rw [this.2.1]
        exact fun h => e h.symm
      rw [this, List.nil_append]
      exact ih

/-- A table or variable name refers to the object in the innermost scope that has one; and to nothing only if
none is visible. -/
theorem resolveOne_innermost {ops : List Op} {R : Reg} (h : run ops [] = some R) (hk : Known ops) (g : Graph) (name : String) (ts : List Typ) :
    match R.resolveOne g name ts with
    | some o => Candidate (live ops []) g name ts o ∧ ∀ o', Candidate (live ops []) g name ts o' → Encloses (belongs o') (belongs o)
    | none => ∀ o', ¬Candidate (live ops []) g name ts o' := by
  have hm := resolve_visible h hk g name ts
  have hs := resolve_innermost_first h g name ts
  unfold Reg.resolveOne
  generalize R.resolve g name ts = l at hm hs
  match l, hm, hs with
  | [], hm, _ => exact fun o' h => absurd ((hm o').mpr h) (by simp)
  | o :: l, hm, hs =>
    refine ⟨(hm o).mp (by simp), fun o' h => ?_⟩
    rcases List.mem_cons.mp ((hm o').mpr h) with rfl | h
    · exact List.suffix_refl _
    · exact (List.pairwise_cons.mp hs).1 o' h

/-- Two tables of the same name in one scope are refused, and so are two variables. -/
theorem names_unique {ops : List Op} {R : Reg} (h : run ops [] = some R) :
    (live ops []).Pairwise fun a b => a.typ ∈ [.table, .irTable, .var] → a.typ = b.typ → a.name = b.name → belongs a ≠ belongs b := by
  have gen : ∀ (ops : List Op) (L : List Obj) (R : Reg), run ops (L.map entry) = some R → (∀ o ∈ L, Good o) →
      (L.Pairwise fun a b => a.typ ∈ [.table, .irTable, .var] → a.typ = b.typ → a.name = b.name → belongs a ≠ belongs b) →
      (live ops L).Pairwise fun a b => a.typ ∈ [.table, .irTable, .var] → a.typ = b.typ → a.name = b.name → belongs a ≠ belongs b := by
    intro ops
    induction ops with
    | nil => exact fun L R _ _ h => h
    | cons op ops ih =>
      intro L R h hL hp
      match op, h with
      | .add g o, h =>
        rw [run] at h
        match ha : Reg.add (L.map entry) g o with
        | none => rw [ha] at h; simp at h
        | some R' =>
          rw [ha] at h
          simp only at h
          rw [live]
          rcases add_eq ha with ⟨hn, rfl⟩ | ⟨hn, hg, rfl, hu⟩
          · rw [if_neg hn]; exact ih L R h hL hp
          · rw [if_pos hn]
            refine ih _ R (by simpa using h) ?_ ?_
            · intro x hx
              rcases List.mem_append.mp hx with hx | hx
              · exact hL x hx
              · rw [List.mem_singleton.mp hx]; exact hg
            · rw [List.pairwise_append]
              refine ⟨hp, List.pairwise_singleton _ _, ?_⟩
              intro a ha b hb
              rw [List.mem_singleton.mp hb]
              intro ht e1 e2 e3
              have e1 : a.typ = o.typ := e1
              have e2 : a.name = o.name := e2
              have := hu (e1 ▸ ht)
              have hmem : a ∈ Reg.objects (L.map entry) (belongs { o with graph := g }) (o.name.getD "") [o.typ] := by
                unfold Reg.objects
                refine List.mem_map.mpr ⟨entry a, List.mem_filter.mpr ⟨List.mem_map.mpr ⟨a, ha, rfl⟩, ?_⟩, rfl⟩
                simp only [Bool.and_eq_true, decide_eq_true_eq, List.contains_iff_mem, List.mem_singleton]
                exact ⟨⟨e3, by rw [← e2]; rfl⟩, e1⟩
              rw [this] at hmem
              simp at hmem
      | .remove o, h =>
        rw [run] at h
        match ha : Reg.remove (L.map entry) o.graph o with
        | none => rw [ha] at h; simp at h
        | some R' =>
          rw [ha] at h
          simp only at h
          have := remove_eq ha
          rw [live]
          by_cases ht : o.typ ∈ [Typ.receive, .irReceive, .send, .irSend]
          · rw [if_pos ht, erase_map] at this
            rw [if_pos ht]
            subst this
            exact ih _ R h (fun x hx => hL x (List.mem_of_mem_erase hx)) (hp.sublist List.erase_sublist)
          · rw [if_neg ht] at this
            rw [if_neg ht]
            subst this
            exact ih _ R h hL hp
  exact gen ops [] R h (by simp) List.Pairwise.nil

/-- A scope that holds no object of that name and type accepts a new one; so does every scope for sends and receives. -/
theorem add_accepts {ops : List Op} {R : Reg} (h : run ops [] = some R) {g : Graph} {o : Obj} (hs : o.scope ≠ .other) (hn : o.name ≠ none)
    (hu : o.typ ∈ [.table, .irTable, .var] → ∀ a ∈ live ops [], a.typ = o.typ → a.name = o.name → belongs a ≠ belongs { o with graph := g }) :
    (R.add g o).isSome := by
  obtain ⟨rfl, hL⟩ := run_eq ops [] R h (by simp)
  generalize live ops [] = L at hL hu ⊢
  unfold Reg.add
  simp only
  generalize hq : ({ o with graph := g } : Obj) = q at hu ⊢
  have hty : o.typ = q.typ := by subst hq; rfl
  have hna : o.name = q.name := by subst hq; rfl
  have hsc : o.scope = q.scope := by subst hq; rfl
  have hg : g = q.graph := by subst hq; rfl
  rw [hty, hna] at hu
  rw [hna] at hn
  rw [hsc] at hs
  rw [hg, hna]
  match hm : q.mode with
  | none => rfl
  | some (st, un) =>
    obtain ⟨hnamed, hst, hun, hun'⟩ := mode_some hm
    simp only
    obtain ⟨name, hname⟩ := Option.ne_none_iff_exists'.mp hn
    rw [hname]
    simp only
    match hp : place q.graph q st with
    | none =>
      unfold place at hp
      clear hst hm hun
      rcases hc : q.scope with _ | _ | _ | _ <;> cases st <;> simp [hc] at hp hs
    | some k =>
      obtain ⟨hk, _⟩ := place_eq hst hp
      simp only
      unfold Reg.register
      simp only
      have hnil : un = true → Reg.objects (L.map entry) k name [q.typ] = [] := by
        intro hun1
        rw [hun', decide_eq_true_eq] at hun1
        rw [List.eq_nil_iff_forall_not_mem]
        intro a ha
        unfold Reg.objects at ha
        obtain ⟨e, he, rfl⟩ := List.mem_map.mp ha
        obtain ⟨he, hc⟩ := List.mem_filter.mp he
        obtain ⟨x, hx, rfl⟩ := List.mem_map.mp he
        simp only [Bool.and_eq_true, decide_eq_true_eq, List.contains_iff_mem, List.mem_singleton] at hc
        obtain ⟨⟨h1, h2⟩, h3⟩ := hc
        refine hu hun1 x hx h3 ?_ (by rw [← hk]; exact h1)
        obtain ⟨m, hm⟩ := Option.ne_none_iff_exists'.mp (hL x hx).name
        have h2 : x.name.getD "" = name := h2
        rw [hm] at h2 ⊢
        rw [hname]
        exact congrArg some h2
      cases un with
      | true => rw [hnil rfl]; simp
      | false =>
        cases st with
        | true => exact absurd (hun rfl) (by simp)
        | false => simp

/-! ### Static objects -/

/-- Finding: a static table cannot be declared twice, as in two instances of one abstraction: the second declaration is
refused instead of sharing the first one (`unique` is tested before `static`). -/
theorem static_twice_refused (g g' : Graph) (n : String) :
    run [.add g ⟨0, .table, .pub, true, some n, g⟩, .add g' ⟨1, .table, .pub, true, some n, g'⟩] [] = none := by
  simp [run, Reg.add, Obj.mode, place, Reg.register, Reg.objects, root]

/-- Finding: a private static table is registered at the root, but only the graph that declares it can see it. -/
theorem static_private_invisible (g g' : Graph) (n : String) (hne : g ≠ g') :
    ∃ R, run [.add g ⟨0, .table, .priv, true, some n, g⟩] [] = some R ∧ R.resolveOne g' n [.table, .irTable] = none := by
  refine ⟨[⟨[], n, ⟨0, .table, .priv, true, some n, g⟩⟩], by simp [run, Reg.add, Obj.mode, place, Reg.register, Reg.objects, root], ?_⟩
  unfold Reg.resolveOne
  rw [List.head?_eq_none_iff, List.eq_nil_iff_forall_not_mem]
  intro o
  have := mem_resolveFrom (L := [⟨0, .table, .priv, true, some n, g⟩]) (loc := g') (name := n) (ts := [.table, .irTable]) (o := o)
    (by intro o ho; rw [List.mem_singleton.mp ho]; exact ⟨by simp, by simp⟩) g'
  have e : [(⟨0, .table, .priv, true, some n, g⟩ : Obj)].map entry = [⟨[], n, ⟨0, .table, .priv, true, some n, g⟩⟩] := by
    simp [entry, belongs]
  rw [e] at this
  unfold Reg.resolve
  rw [this]
  rintro ⟨h1, _, _, _, h2⟩
  rw [List.mem_singleton.mp h1] at h2
  exact hne (h2 rfl)

/-! ### Examples -/

/-- a root graph with a public table and two subgraphs, each with a private table and a receiver of the same name -/
def exampleOps : List Op :=
  [.add [] ⟨0, .table, .pub, false, some "t", []⟩,
   .add [1] ⟨1, .table, .priv, false, some "t", [1]⟩,
   .add [1] ⟨2, .receive, .pub, false, some "r", [1]⟩,
   .add [2] ⟨3, .receive, .prot, false, some "r", [2]⟩,
   .add [5, 2] ⟨4, .receive, .priv, false, some "r", [5, 2]⟩,
   .add [2] ⟨5, .send, .pub, false, some "r", [2]⟩,
   .remove ⟨5, .send, .pub, false, some "r", [2]⟩]

example : (run exampleOps []).isSome ∧ Known exampleOps ∧
    (∀ R, run exampleOps [] = some R →
      (R.resolveOne [1] "t" [.table, .irTable]).map (·.id) = some 1 ∧
      (R.resolveOne [2] "t" [.table, .irTable]).map (·.id) = some 0 ∧
      (R.resolve [5, 2] "r" [.receive]).map (·.id) = [4, 2, 3] ∧
      (R.resolve [] "r" [.receive]).map (·.id) = [2, 3]) := by
  refine ⟨by decide, by unfold Known; decide, ?_⟩
  intro R h
  have : run exampleOps [] = some ((live exampleOps []).map entry) := by decide
  rw [this] at h
  obtain rfl := Option.some.inj h
  decide

end Verif.Scope
