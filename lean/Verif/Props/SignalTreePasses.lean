import Verif.SignalTreePasses
import Verif.Props.SignalTree
import Verif.Props.Fma
import Mathlib.Tactic.IntervalCases
/-!
# C33, C34 for patches with subpatches

`cascade_expansion` and `fma_replacement` go through all subpatches (`Verif.SignalTreePasses`); together with ordering and
buffer assignment (C30, C31) this is the signal half of `HeavyGraph.prepare`.
-/
namespace Verif.Signal
open Relation

variable {α : Type}

/-! ### specification -/

/-- the sum of the signals at the first inlet -/
def headSum [AddCommMonoid α] (env : Nat → Nat → α) (ls : List Inlet) : α :=
  match ls with
  | l :: _ => inletSum env l
  | [] => 0

/-- the signals of a patch with subpatches in which any number of signals may arrive at an inlet: they are added -/
structure SumTreeFlow [AddCommMonoid α] (T : Tree) (F : Nat → List α → List α) (inp : Nat → α) (env : Nat → Nat → α) : Prop where
  /-- patch inputs -/
  ext : ∀ g s, T.sub g = some s → ∀ p ∈ s.ids, ∀ k out ch, (T.obj p).outlets[k]? = some out → out.preset = .input ch →
    env p k = inp ch
  /-- objects -/
  obj : ∀ g s, T.sub g = some s → ∀ o ∈ s.ids, T.sub o = none → (T.obj o).signal → dacChan (T.obj o) = none → ∀ k v,
    (F o ((T.obj o).inlets.map (inletSum env)))[k]? = some v → env o k = v
  /-- what an inlet object delivers is the signal at that inlet of its graph -/
  enters : ∀ g s, T.sub g = some s → ∀ i x n, s.ins[i]? = some (x, n) → env x 0 = headSum env ((T.obj g).inlets.drop i)
  /-- what an outlet of a graph delivers is the signal at that outlet object -/
  leaves : ∀ g s, T.sub g = some s → ∀ (i x : Nat), s.outs[i]? = some x → env g i = headSum env (T.obj x).inlets

/-! ### one graph of many

The objects of a graph that are graphs or inlet objects are sources of signals, but do not compute; seen from their graph they
are objects that give some signal. -/

/-- the objects in `M` count as signal objects -/
def mask (M : Nat → Bool) (g : Graph) : Graph := ⟨g.ids, fun o => { g.obj o with signal := (g.obj o).signal || M o }⟩

/-- subgraphs and inlet objects -/
def Tree.opaq (T : Tree) (s : Sub) (o : Nat) : Bool := (T.sub o).isSome || s.ins.any fun x => x.1 == o

/-- a graph as its own objects see it -/
def Tree.masked (T : Tree) (s : Sub) : Graph := mask (T.opaq s) (T.flat s)

/-- well-formed patches: what the earlier passes deliver.  `rank` bounds the nesting below an object, identifiers are below
`n`. -/
structure TreePatch (T : Tree) (K : Nat → Kind) (root : Nat) (rank : Nat → Nat) (n : Nat) : Prop where
  isGraph : (T.sub root).isSome
  top : ∀ g, ¬ Child T root g
  rootIn : ∀ l ∈ (T.obj root).inlets, l.conns = []
  depth : rank root ≤ T.depth
  nest : ∀ a b, Child T a b → rank a < rank b
  pos : ∀ g, (T.sub g).isSome → 0 < rank g
  /-- an object is in one graph -/
  parent : ∀ a b b', Child T a b → Child T a b' → b = b'
  inGraph : ∀ g, (T.sub g).isSome → g = root ∨ ∃ g', Child T g g'
  lt : ∀ g s, T.sub g = some s → g < n ∧ ∀ o ∈ s.ids, o < n
  /-- inlet objects have one outlet, of a signal; they know how many readers they have -/
  ins : ∀ g s, T.sub g = some s → ∀ x m, (x, m) ∈ s.ins → x ∈ s.ids ∧ T.sub x = none ∧ (T.obj x).signal = false ∧
    ∃ out, (T.obj x).outlets = [out] ∧ out.preset = .zero ∧ out.conns ≤ m
  insNodup : ∀ g s, T.sub g = some s → (s.ins.map (·.1)).Nodup
  /-- outlet objects have one inlet and no outlets -/
  outs : ∀ g s, T.sub g = some s → ∀ x ∈ s.outs, x ∈ s.ids ∧ T.sub x = none ∧ (T.obj x).signal = false ∧
    (T.obj x).outlets = [] ∧ (T.obj x).inlets.length ≤ 1
  outsNodup : ∀ g s, T.sub g = some s → s.outs.Nodup
  /-- a graph has an inlet object for each of its inlets and an outlet object for each of its outlets, which have no preset
  buffer -/
  lets : ∀ g s, T.sub g = some s → (T.obj g).inlets.length ≤ s.ins.length ∧ (T.obj g).outlets.length ≤ s.outs.length ∧
    ∀ l ∈ (T.obj g).outlets, l.preset = .zero
  /-- signals come from signal outlets; outlets know the number of their connections; only `[adc~]` and `[dac~]` have preset
  buffers -/
  level : ∀ g s, T.sub g = some s → MWF (T.masked s)
  /-- connections stay in their graph -/
  closed : ∀ g s, T.sub g = some s → Closed (T.flat s)
  /-- no signal connection lies on a cycle of connections of its graph -/
  nocycle : ∀ g s, T.sub g = some s → NoCycle (T.flat s)
  /-- a subpatch that a signal leaves processes a signal (F54) -/
  live : ∀ g, (T.sub g).isSome → ∀ out ∈ (T.obj g).outlets, out.ty ≠ none → 0 < out.conns → T.sig g = true
  /-- multiplications, additions and subtractions have two inlets and one outlet -/
  arith : ∀ g s, T.sub g = some s → ∀ p ∈ s.ids, Arith (K p) → T.sub p = none ∧ p ∉ s.ins.map (·.1) ∧ p ∉ s.outs ∧
    (T.obj p).inlets.length = 2 ∧ (∃ out, (T.obj p).outlets = [out] ∧ out.ty = some .f) ∧ (T.obj p).signal = true
  /-- graphs and inlet objects are none -/
  other : ∀ g s, T.sub g = some s → K g = .other ∧ ∀ x ∈ s.ins.map (·.1), K x = .other
  /-- what they send are signals -/
  sends : ∀ g s, T.sub g = some s → ∀ p ∈ s.ids, ∀ l ∈ (T.obj p).inlets, ∀ c ∈ l.conns, Arith (K c.src) → c.isSignal = true

/-! ### masks -/

theorem mask_addObj (M : Nat → Bool) (g : Graph) (n : Nat) (a b : Conn) : mask M (g.addObj n (addObjF a b)) = (mask M g).addObj n (addObjF a b) := by
  simp only [mask, Graph.addObj, Graph.mk.injEq, true_and]
  funext p
  by_cases e : p = n <;> simp [e, addObjF]

theorem mask_chain (M : Nat → Bool) (cs : List Conn) : ∀ (g : Graph) (n : Nat) (l : Conn),
    cascadeChain (mask M g) n l cs = (mask M (cascadeChain g n l cs).1, (cascadeChain g n l cs).2) := by
  induction cs with
  | nil => intro g n l; rfl
  | cons c cs ih =>
    intro g n l
    rw [cascadeChain, cascadeChain, ← mask_addObj, ih]

theorem mask_setObj (M : Nat → Bool) (g : Graph) (o i : Nat) (cs : List Conn) (x : Obj) :
    (mask M g).setObj o (({ x with signal := x.signal || M o } : Obj).setConns i cs) = mask M (g.setObj o (x.setConns i cs)) := by
  simp only [mask, Graph.setObj, Graph.mk.injEq, true_and]
  funext p
  by_cases e : p = o <;> simp [e, Obj.setConns]

theorem mask_inlet (M : Nat → Bool) (g : Graph) (n o i : Nat) :
    cascadeInlet (mask M g) n o i = (mask M (cascadeInlet g n o i).1, (cascadeInlet g n o i).2) := by
  have h0 : ((mask M g).obj o).inlets = (g.obj o).inlets := rfl
  unfold cascadeInlet
  rw [h0]
  cases (g.obj o).inlets[i]? with
  | none => rfl
  | some l =>
    simp only
    split
    · rename_i c d cs _
      rw [mask_chain]
      simp only [Prod.mk.injEq, and_true]
      exact mask_setObj M _ o i _ (g.obj o)
    · rfl

theorem mask_cascadeObj (M : Nat → Bool) (is : List Nat) : ∀ (g : Graph) (n o : Nat),
    cascadeObj (mask M g) n o is = (mask M (cascadeObj g n o is).1, (cascadeObj g n o is).2) := by
  induction is with
  | nil => intro g n o; rfl
  | cons i is ih =>
    intro g n o
    rw [cascadeObj, cascadeObj, mask_inlet, ih]

theorem mask_fmaMatch (M : Nat → Bool) (k : KGraph) (o : Nat) : KGraph.fmaMatch ⟨mask M k.g, k.kind⟩ o = k.fmaMatch o := rfl

theorem mask_fmaApply (M : Nat → Bool) (k : KGraph) (n o : Nat) (m : Match) :
    KGraph.fmaApply ⟨mask M k.g, k.kind⟩ n o m = ⟨mask M (k.fmaApply n o m).g, (k.fmaApply n o m).kind⟩ := by
  simp only [KGraph.fmaApply, mask, KGraph.mk.injEq, Graph.mk.injEq, true_and, and_true]
  funext p
  by_cases e : p = n <;> simp [e, Obj.moveSrc, Obj.out0]

theorem mask_fmaStep (M : Nat → Bool) (k : KGraph) (n o : Nat) :
    KGraph.fmaStep ⟨mask M k.g, k.kind⟩ n o = (⟨mask M (k.fmaStep n o).1.g, (k.fmaStep n o).1.kind⟩, (k.fmaStep n o).2) := by
  unfold KGraph.fmaStep
  rw [mask_fmaMatch]
  cases k.fmaMatch o with
  | none => rfl
  | some m => simp only [mask_fmaApply]

/-! ### graphs with the same objects -/

/-- the same objects -/
def Same (A B : Graph) : Prop := A.ids = B.ids ∧ ∀ p ∈ A.ids, A.obj p = B.obj p

theorem Same.symm {A B : Graph} (h : Same A B) : Same B A := ⟨h.1.symm, fun p hp => (h.2 p (h.1 ▸ hp)).symm⟩

theorem Same.closed {A B : Graph} (h : Same A B) (c : Closed A) : Closed B := by
  intro o ho p hp
  rw [← h.1] at ho ⊢
  refine c o ho p ?_
  unfold Feeds at hp ⊢
  rwa [h.2 o ho]

theorem Same.reach {A B : Graph} (h : Same A B) (c : Closed A) {a b : Nat} (hb : b ∈ A.ids) (hr : Reach A a b) : Reach B a b := by
  induction hr with
  | refl => exact .refl
  | @tail b b' h1 h2 ih =>
    refine (ih (c _ hb _ h2)).tail ?_
    unfold Feeds at h2 ⊢
    rwa [← h.2 b' hb]

theorem Same.reads {A B : Graph} (h : Same A B) {p : Nat} (hp : p ∈ A.ids) : A.reads p = B.reads p := by
  unfold Graph.reads
  rw [h.2 p hp]

theorem Same.nocycle {A B : Graph} (h : Same A B) (c : Closed A) (n : NoCycle A) : NoCycle B := by
  intro o ho pk hpk hr
  have ho' : o ∈ A.ids := h.1 ▸ ho
  rw [← h.reads ho'] at hpk
  refine n o ho' pk hpk (h.symm.reach (h.closed c) ?_ hr)
  obtain ⟨x, hx, hm⟩ := List.mem_flatMap.mp hpk
  obtain ⟨y, hy, rfl⟩ := List.mem_map.mp hm
  rw [← h.1]
  exact c o ho' _ ⟨x, hx, y, (List.mem_filter.mp hy).1, rfl⟩

theorem Same.leads {A B : Graph} (h : Same A B) (c : Closed A) {p : Nat} (hl : Leads A p) : Leads B p := by
  obtain ⟨leaf, h1, h2, h3⟩ := hl
  refine ⟨leaf, h.1 ▸ h1, ?_, h.reach c h1 h3⟩
  unfold Leaf at h2 ⊢
  rwa [← h.2 leaf h1]

theorem Same.mwf {A B : Graph} (h : Same A B) (w : MWF A)
    (hp : ∀ (p k : Nat) (out : Outlet), (B.obj p).outlets[k]? = some out → ∀ t i, out.preset ≠ .tmp t i) : MWF B := by
  have hr : (A.ids.flatMap A.reads) = B.ids.flatMap B.reads := by
    rw [← h.1]
    exact List.flatMap_congr fun p hp => h.reads hp
  refine ⟨h.1 ▸ w.nodup, fun o ho hs => ?_, fun o ho l hl c hc hcs => ?_, hp, fun p hp k out hk => ?_⟩
  · have ho' : o ∈ A.ids := h.1 ▸ ho
    rw [← h.2 o ho'] at hs ⊢
    exact w.kinds o ho' hs
  · have ho' : o ∈ A.ids := h.1 ▸ ho
    rw [← h.2 o ho'] at hl
    have := w.source o ho' l hl c hc hcs
    rw [h.2 c.src this.1, h.1] at this
    exact this
  · have hp' : p ∈ A.ids := h.1 ▸ hp
    rw [← h.2 p hp'] at hk
    rw [← hr]
    exact w.count p hp' k out hk

/-! ### from patches to compilable patches -/

variable {T : Tree} {K : Nat → Kind} {root : Nat} {rank : Nat → Nat} {n : Nat}

theorem opaq_ins {s : Sub} {o : Nat} : (s.ins.any fun x => x.1 == o) = true ↔ o ∈ s.ins.map (·.1) := by
  simp only [List.any_eq_true, beq_iff_eq, List.mem_map]

/-- at most one signal at every inlet -/
def Tree.One (T : Tree) : Prop := ∀ g s, T.sub g = some s → ∀ o ∈ s.ids, ∀ l ∈ (T.obj o).inlets, (l.conns.filter (·.isSignal)).length ≤ 1

theorem TreePatch.treeWF (w : TreePatch T K root rank n) (one : T.One) : TreeWF T root rank := by
  have hcount : ∀ g s, T.sub g = some s → ∀ p ∈ s.ids, ∀ (k : Nat) (out : Outlet), (T.obj p).outlets[k]? = some out →
      (T.readsIn s).count (p, k) ≤ out.conns := fun g s hs p hp k out hk => (w.level g s hs).count p hp k out hk
  refine ⟨w.isGraph, w.top, w.rootIn, w.depth, w.nest, w.pos, w.parent, fun g s hs x m hx => ?_, w.insNodup, w.outs, w.outsNodup,
    fun g s hs => ⟨(w.lets g s hs).1, (w.lets g s hs).2.2⟩, fun g s hs o ho hn hsig => ?_, one, fun g s hs o ho l hl c hc => w.closed g s hs o ho _ ⟨l, hl, c, hc, rfl⟩,
    fun g s hs o ho l hl c hc hcs => ?_, ?_, fun g s hs p hp k out hk _ => hcount g s hs p hp k out hk, fun g s hs o ho pk hpk => ?_⟩
  · obtain ⟨h1, h2, h3, out, h4, h5, h6⟩ := w.ins g s hs x m hx
    refine ⟨h1, h2, h3, fun l hl => ?_, Nat.le_trans (hcount g s hs x h1 0 out (by rw [h4]; rfl)) h6⟩
    rw [h4] at hl
    simp only [List.mem_cons, List.not_mem_nil, or_false] at hl
    rw [hl, h5]
  · rcases (w.level g s hs).kinds o ho (by simp [Tree.masked, mask, Tree.flat, hsig]) with h | ⟨conns, c, h⟩
    · exact Or.inl h
    · refine Or.inr ⟨conns, c, ?_⟩
      simp only [Tree.masked, mask, Tree.flat, hsig, Bool.true_or] at h
      rw [← h, ← hsig]
  · obtain ⟨hm, out, ho', hcase⟩ := (w.level g s hs).source o ho l hl c hc hcs
    have ho' : (T.obj c.src).outlets[c.outlet]? = some out := ho'
    have hsigm : ((T.masked s).obj c.src).signal = ((T.obj c.src).signal || ((T.sub c.src).isSome || s.ins.any fun x => x.1 == c.src)) := rfl
    cases hsub : T.sub c.src with
    | some s' =>
      have hty : out.ty ≠ none := by
        rw [hsigm, hsub] at hcase
        simp only [Option.isSome_some, Bool.true_or, Bool.or_true, Bool.true_eq_false, false_and, or_false, true_and] at hcase
        exact hcase.1
      have hpos : 0 < out.conns := by
        refine Nat.lt_of_lt_of_le (List.count_pos_iff.mpr (List.mem_flatMap.mpr ⟨o, ho, ?_⟩)) (hcount g s hs c.src hm c.outlet out ho')
        exact mem_reads (g := T.flat s) hl hc hcs
      obtain ⟨hlt, -⟩ := List.getElem?_eq_some_iff.mp ho'
      exact Or.inr (Or.inr (Or.inr ⟨s', out, rfl, w.live c.src (by simp [hsub]) out (List.mem_of_getElem? ho') hty hpos,
        Nat.lt_of_lt_of_le hlt (w.lets _ s' hsub).2.1, ho'⟩))
    | none =>
      by_cases hin : c.src ∈ s.ins.map (·.1)
      · refine Or.inr (Or.inr (Or.inl ⟨hin, ?_⟩))
        obtain ⟨⟨x, m⟩, hx, e⟩ := List.mem_map.mp hin
        simp only at e
        subst e
        obtain ⟨-, -, -, out', h4, -⟩ := w.ins g s hs _ m hx
        rw [h4] at ho'
        match hc0 : c.outlet, ho' with
        | 0, _ => rfl
        | k + 1, ho' => simp at ho'
      · have hin' : (s.ins.any fun x => x.1 == c.src) = false := by
          rw [Bool.eq_false_iff]
          exact fun h => hin (opaq_ins.mp h)
        rw [hsigm, hsub, hin'] at hcase
        simp only [Option.isSome_none, Bool.or_false] at hcase
        rcases hcase with ⟨h1, h2, h3⟩ | ⟨h1, ch, h2⟩
        · exact Or.inl ⟨rfl, h1, out, ho', h2, h3⟩
        · exact Or.inr (Or.inl ⟨rfl, h1, hin, out, ch, ho', h2⟩)
  · obtain ⟨s, hs⟩ := Option.isSome_iff_exists.mp w.isGraph
    exact (w.level root s hs).presets
  · exact w.nocycle g s hs o ho pk hpk

/-! ### one step -/

/-- what a step at one graph guarantees -/
structure LRef (K : Nat → Kind) (M : Nat → Bool) (G : Graph) (n : Nat) (G' : Graph) (n' : Nat) : Prop where
  le : n ≤ n'
  lt : ∀ p ∈ G'.ids, p < n'
  kept : ∀ p ∈ G'.ids, p < n → p ∈ G.ids ∧ (G'.obj p).outlets = (G.obj p).outlets ∧ (G'.obj p).signal = (G.obj p).signal ∧
    (G'.obj p).inlets.length = (G.obj p).inlets.length
  gone : ∀ p ∈ G.ids, p ∉ G'.ids → Arith (K p)
  new : ∀ p ∈ G'.ids, n ≤ p → (G'.obj p).signal = true ∧ ∃ cn, (G'.obj p).outlets = [⟨some .f, cn, .zero⟩]
  fused : (∀ p ∈ G.ids, p ∈ G'.ids) ∨ ∃ p ∈ G'.ids, n ≤ p
  mwf : MWF (mask M G')
  closed : Closed G'
  nocycle : NoCycle G'
  lead : ∀ p ∈ G'.ids, p < n → Leads G p → Leads G' p

section
variable {g : Nat} {s : Sub} {G' : Graph} {n' : Nat}

theorem setLevel_sub (hs : T.sub g = some s) (x : Nat) :
    (T.setLevel g G').sub x = if x = g then some { s with ids := G'.ids } else T.sub x := by
  simp only [Tree.setLevel, hs]

theorem setLevel_obj (hs : T.sub g = some s) (p : Nat) : (T.setLevel g G').obj p = if p ∈ G'.ids then G'.obj p else T.obj p := by
  simp only [Tree.setLevel, hs]

theorem setLevel_depth (hs : T.sub g = some s) : (T.setLevel g G').depth = T.depth := by
  simp only [Tree.setLevel, hs]

theorem setLevel_isSome (hs : T.sub g = some s) (x : Nat) : ((T.setLevel g G').sub x).isSome = (T.sub x).isSome := by
  rw [setLevel_sub hs]
  by_cases e : x = g
  · simp [e, hs]
  · simp [e]

theorem setLevel_none (hs : T.sub g = some s) (x : Nat) : (T.setLevel g G').sub x = none ↔ T.sub x = none := by
  have := setLevel_isSome (G' := G') hs x
  rw [← Option.not_isSome_iff_eq_none, ← Option.not_isSome_iff_eq_none, this]

theorem setLevel_child (hs : T.sub g = some s) (a b : Nat) :
    Child (T.setLevel g G') a b ↔ (b = g ∧ a ∈ G'.ids) ∨ (b ≠ g ∧ Child T a b) := by
  unfold Child
  rw [setLevel_sub hs]
  by_cases e : b = g
  · simp [e]
  · simp [e]

theorem setLevel_other (w : TreePatch T K root rank n) (hs : T.sub g = some s) (r : LRef K (T.opaq s) (T.flat s) n G' n') {g2 p : Nat} {s2 : Sub}
    (h2 : T.sub g2 = some s2) (hne : g2 ≠ g) (hp : p ∈ s2.ids) : p ∉ G'.ids := by
  intro h
  have := (r.kept p h ((w.lt g2 s2 h2).2 p hp)).1
  exact hne (w.parent p g2 g ⟨s2, h2, hp⟩ ⟨s, hs, this⟩)

theorem setLevel_oldchild (hs : T.sub g = some s) (r : LRef K (T.opaq s) (T.flat s) n G' n') {a b : Nat} (ha : a < n)
    (h : Child (T.setLevel g G') a b) : Child T a b := by
  rcases (setLevel_child hs a b).mp h with ⟨e, h'⟩ | ⟨-, h'⟩
  · exact ⟨s, e ▸ hs, (r.kept a h' ha).1⟩
  · exact h'

theorem setLevel_kept (hs : T.sub g = some s) (r : LRef K (T.opaq s) (T.flat s) n G' n') {p : Nat} (hp : p < n) :
    ((T.setLevel g G').obj p).outlets = (T.obj p).outlets ∧ ((T.setLevel g G').obj p).signal = (T.obj p).signal ∧
    ((T.setLevel g G').obj p).inlets.length = (T.obj p).inlets.length := by
  rw [setLevel_obj hs]
  by_cases e : p ∈ G'.ids
  · rw [if_pos e]
    exact (r.kept p e hp).2
  · rw [if_neg e]
    exact ⟨rfl, rfl, rfl⟩

theorem isAdc_congr {a b : Obj} (h : a.outlets = b.outlets) : isAdc a = isAdc b := by simp only [isAdc, h]

theorem setLevel_processes (w : TreePatch T K root rank n) (hs : T.sub g = some s) (r : LRef K (T.opaq s) (T.flat s) n G' n') (f : Nat) :
    ∀ o, T.processes f o = true → (T.setLevel g G').processes f o = true := by
  have hsignal : ∀ o, (T.obj o).signal = true → ((T.setLevel g G').obj o).signal = true := by
    intro o h
    by_cases e : o < n
    · rw [(setLevel_kept hs r e).2.1]; exact h
    · rw [setLevel_obj hs]
      split
      · rename_i e'
        exact (r.new o e' (by omega)).1
      · exact h
  have hnew : ∀ f, ∀ p ∈ G'.ids, n ≤ p → (T.setLevel g G').processes f p = true := by
    intro f p hp hpn
    have h1 : ((T.setLevel g G').obj p).signal = true := by
      rw [setLevel_obj hs, if_pos hp]
      exact (r.new p hp hpn).1
    have h2 : (T.setLevel g G').sub p = none := by
      rw [setLevel_none hs]
      cases h : T.sub p with
      | none => rfl
      | some s' =>
        have := (w.lt p s' h).1
        omega
    cases f with
    | zero => exact h1
    | succ f => rw [Tree.processes, h2]; exact h1
  induction f with
  | zero => exact hsignal
  | succ f ih =>
    intro o h
    rw [Tree.processes] at h ⊢
    rw [setLevel_sub hs]
    by_cases e : o = g
    · subst e
      rw [hs] at h
      rw [if_pos rfl]
      simp only [Bool.or_eq_true, List.any_eq_true] at h ⊢
      have done : (∃ p ∈ G'.ids, n ≤ p) → (∃ x ∈ G'.ids, (T.setLevel o G').processes f x = true) :=
        fun ⟨p, h1, h2⟩ => ⟨p, h1, hnew f p h1 h2⟩
      rcases h with ⟨x, hx, h⟩ | ⟨x, hx, h⟩
      · rcases r.fused with hf | hf
        · exact Or.inl ⟨x, hf x hx, ih x h⟩
        · exact Or.inl (done hf)
      · rcases r.fused with hf | hf
        · refine Or.inr ⟨x, hf x hx, ?_⟩
          rw [isAdc_congr (setLevel_kept hs r ((w.lt o s hs).2 x hx)).1]
          exact h
        · exact Or.inl (done hf)
    · rw [if_neg e]
      cases hso : T.sub o with
      | none => rw [hso] at h; exact hsignal o h
      | some s2 =>
        rw [hso] at h
        simp only [Bool.or_eq_true, List.any_eq_true] at h ⊢
        rcases h with ⟨x, hx, h⟩ | ⟨x, hx, h⟩
        · exact Or.inl ⟨x, hx, ih x h⟩
        · refine Or.inr ⟨x, hx, ?_⟩
          rw [isAdc_congr (setLevel_kept hs r ((w.lt o s2 hso).2 x hx)).1]
          exact h

theorem setLevel_same (hs : T.sub g = some s) : Same ((T.setLevel g G').flat { s with ids := G'.ids }) G' := by
  refine ⟨rfl, fun p hp => ?_⟩
  have hp : p ∈ G'.ids := hp
  simp only [Tree.flat]
  rw [setLevel_obj hs, if_pos hp]

theorem setLevel_same_other (w : TreePatch T K root rank n) (hs : T.sub g = some s) (r : LRef K (T.opaq s) (T.flat s) n G' n') {g2 : Nat} {s2 : Sub}
    (h2 : T.sub g2 = some s2) (hne : g2 ≠ g) : Same (T.flat s2) ((T.setLevel g G').flat s2) := by
  refine ⟨rfl, fun p hp => ?_⟩
  simp only [Tree.flat]
  rw [setLevel_obj hs, if_neg (setLevel_other w hs r h2 hne hp)]

theorem setLevel_opaq (hs : T.sub g = some s) (s2 : Sub) (ids : List Nat) : (T.setLevel g G').opaq { s2 with ids := ids } = T.opaq s2 := by
  funext o
  simp only [Tree.opaq]
  rw [setLevel_isSome hs]

theorem Same.mask {A B : Graph} (h : Same A B) (M : Nat → Bool) : Same (mask M A) (mask M B) :=
  ⟨h.1, fun p hp => by simp only [Signal.mask]; rw [h.2 p hp]⟩

theorem TreePatch.set (w : TreePatch T K root rank n) (hs : T.sub g = some s) (r : LRef K (T.opaq s) (T.flat s) n G' n')
    (hrank : ∀ p, n ≤ p → rank p = 0) (K' : Nat → Kind) (hK : ∀ p, p < n → K' p = K p)
    (harith : ∀ p ∈ G'.ids, n ≤ p → Arith (K' p) → (G'.obj p).inlets.length = 2)
    (hsends : ∀ p ∈ G'.ids, ∀ l ∈ (G'.obj p).inlets, ∀ c ∈ l.conns, Arith (K' c.src) → c.isSignal = true) :
    TreePatch (T.setLevel g G') K' root rank n' := by
  have hgn := (w.lt g s hs).1
  have hroot : root ∉ G'.ids := by
    intro h
    obtain ⟨s0, h0⟩ := Option.isSome_iff_exists.mp w.isGraph
    exact w.top g ⟨s, hs, (r.kept root h (w.lt root s0 h0).1).1⟩
  have hsub : ∀ p, n ≤ p → T.sub p = none := by
    intro p hp
    cases h : T.sub p with
    | none => rfl
    | some s' =>
      have := (w.lt p s' h).1
      omega
  have hin : ∀ p ∈ s.ids, ¬ Arith (K p) → p ∈ G'.ids := by
    intro p hp h
    by_cases e : p ∈ G'.ids
    · exact e
    · exact absurd (r.gone p hp e) h
  -- a graph of the new tree
  have cases : ∀ {g2 s2}, (T.setLevel g G').sub g2 = some s2 → (g2 = g ∧ s2 = { s with ids := G'.ids }) ∨ (g2 ≠ g ∧ T.sub g2 = some s2) := by
    intro g2 s2 h
    rw [setLevel_sub hs] at h
    by_cases e : g2 = g
    · rw [if_pos e] at h
      cases h
      exact Or.inl ⟨e, rfl⟩
    · rw [if_neg e] at h
      exact Or.inr ⟨e, h⟩
  have presets : ∀ (p k : Nat) (out : Outlet), ((T.setLevel g G').obj p).outlets[k]? = some out → ∀ t i, out.preset ≠ .tmp t i := by
    intro p k out h
    rw [setLevel_obj hs] at h
    split at h
    · exact r.mwf.presets p k out h
    · exact (w.level g s hs).presets p k out h
  refine ⟨?_, fun x hx => ?_, ?_, ?_, fun a b h => ?_, fun x hx => ?_, fun a b b' h h' => ?_, fun x hx => ?_, fun g2 s2 h2 => ?_, fun g2 s2 h2 x m hx => ?_,
    fun g2 s2 h2 => ?_, fun g2 s2 h2 x hx => ?_, fun g2 s2 h2 => ?_, fun g2 s2 h2 => ?_, fun g2 s2 h2 => ?_, fun g2 s2 h2 => ?_,
    fun g2 s2 h2 => ?_, fun g2 hg2 out hout ht hc => ?_, fun g2 s2 h2 p hp ha => ?_, fun g2 s2 h2 => ?_,
    fun g2 s2 h2 p hp l hl c hc ha => ?_⟩
  · rw [setLevel_isSome hs]; exact w.isGraph
  · rcases (setLevel_child hs _ _).mp hx with ⟨-, h⟩ | ⟨-, h⟩
    · exact hroot h
    · exact w.top _ h
  · rw [setLevel_obj hs, if_neg hroot]; exact w.rootIn
  · rw [setLevel_depth hs]; exact w.depth
  · by_cases e : a < n
    · exact w.nest a b (setLevel_oldchild hs r e h)
    · rw [hrank a (by omega)]
      refine w.pos b ?_
      obtain ⟨s', h', -⟩ := h
      rw [← setLevel_isSome (G' := G') hs b, h']
      rfl
  · rw [setLevel_isSome hs] at hx; exact w.pos x hx
  · by_cases e : a < n
    · exact w.parent a b b' (setLevel_oldchild hs r e h) (setLevel_oldchild hs r e h')
    · have : ∀ b, Child (T.setLevel g G') a b → b = g := by
        intro b h
        rcases (setLevel_child hs _ _).mp h with ⟨h, -⟩ | ⟨-, s', h1, h2⟩
        · exact h
        · exact absurd ((w.lt b s' h1).2 a h2) e
      rw [this b h, this b' h']
  · rw [setLevel_isSome hs] at hx
    rcases w.inGraph x hx with h | ⟨g', s', h1, h2⟩
    · exact Or.inl h
    · refine Or.inr ⟨g', (setLevel_child hs _ _).mpr ?_⟩
      by_cases e : g' = g
      · subst e
        rw [hs] at h1
        cases h1
        refine Or.inl ⟨rfl, hin x h2 fun ha => ?_⟩
        rw [(w.arith g' s hs x h2 ha).1] at hx
        simp at hx
      · exact Or.inr ⟨e, s', h1, h2⟩
  · rcases cases h2 with ⟨rfl, rfl⟩ | ⟨hne, h2⟩
    · exact ⟨Nat.lt_of_lt_of_le hgn r.le, r.lt⟩
    · obtain ⟨a, b⟩ := w.lt g2 s2 h2
      exact ⟨Nat.lt_of_lt_of_le a r.le, fun o ho => Nat.lt_of_lt_of_le (b o ho) r.le⟩
  · have key : ∀ g3 s3, T.sub g3 = some s3 → (x, m) ∈ s3.ins → x ∈ s3.ids ∧ (T.setLevel g G').sub x = none ∧ ((T.setLevel g G').obj x).signal = false ∧
        ∃ out, ((T.setLevel g G').obj x).outlets = [out] ∧ out.preset = .zero ∧ out.conns ≤ m := by
      intro g3 s3 h3 hx
      obtain ⟨a1, a2, a3, a4⟩ := w.ins g3 s3 h3 x m hx
      obtain ⟨b1, b2, b3⟩ := setLevel_kept hs r ((w.lt g3 s3 h3).2 x a1)
      rw [b1, b2, setLevel_none hs]
      exact ⟨a1, a2, a3, a4⟩
    rcases cases h2 with ⟨rfl, rfl⟩ | ⟨hne, h2⟩
    · have h1 := key g2 s hs hx
      refine ⟨hin x h1.1 fun ha => ?_, h1.2⟩
      exact (w.arith g2 s hs x h1.1 ha).2.1 (List.mem_map.mpr ⟨_, hx, rfl⟩)
    · exact key g2 s2 h2 hx
  · rcases cases h2 with ⟨rfl, rfl⟩ | ⟨hne, h2⟩
    · exact w.insNodup g2 s hs
    · exact w.insNodup g2 s2 h2
  · have key : ∀ g3 s3, T.sub g3 = some s3 → x ∈ s3.outs → x ∈ s3.ids ∧ (T.setLevel g G').sub x = none ∧ ((T.setLevel g G').obj x).signal = false ∧
        ((T.setLevel g G').obj x).outlets = [] ∧ ((T.setLevel g G').obj x).inlets.length ≤ 1 := by
      intro g3 s3 h3 hx
      obtain ⟨a1, a2, a3, a4⟩ := w.outs g3 s3 h3 x hx
      obtain ⟨b1, b2, b3⟩ := setLevel_kept hs r ((w.lt g3 s3 h3).2 x a1)
      rw [b1, b2, b3, setLevel_none hs]
      exact ⟨a1, a2, a3, a4⟩
    rcases cases h2 with ⟨rfl, rfl⟩ | ⟨hne, h2⟩
    · have h1 := key g2 s hs hx
      refine ⟨hin x h1.1 fun ha => ?_, h1.2⟩
      exact (w.arith g2 s hs x h1.1 ha).2.2.1 hx
    · exact key g2 s2 h2 hx
  · rcases cases h2 with ⟨rfl, rfl⟩ | ⟨hne, h2⟩
    · exact w.outsNodup g2 s hs
    · exact w.outsNodup g2 s2 h2
  · have hlt : g2 < n := by
      rcases cases h2 with ⟨rfl, rfl⟩ | ⟨hne, h2⟩
      · exact hgn
      · exact (w.lt g2 s2 h2).1
    obtain ⟨b1, b2, b3⟩ := setLevel_kept hs r hlt
    rw [b1, b3]
    rcases cases h2 with ⟨rfl, rfl⟩ | ⟨hne, h2⟩
    · exact w.lets g2 s hs
    · exact w.lets g2 s2 h2
  · rcases cases h2 with ⟨rfl, rfl⟩ | ⟨hne, h2⟩
    · have e := (setLevel_same (G' := G') hs).symm.mask (T.opaq s)
      have h1 := e.mwf r.mwf presets
      unfold Tree.masked
      rw [setLevel_opaq hs]
      exact h1
    · have e := (setLevel_same_other w hs r h2 hne).mask (T.opaq s2)
      have h1 := e.mwf (w.level g2 s2 h2) presets
      unfold Tree.masked
      rw [show (T.setLevel g G').opaq s2 = T.opaq s2 from setLevel_opaq hs s2 s2.ids]
      exact h1
  · rcases cases h2 with ⟨rfl, rfl⟩ | ⟨hne, h2⟩
    · exact (setLevel_same (G' := G') hs).symm.closed r.closed
    · exact (setLevel_same_other w hs r h2 hne).closed (w.closed g2 s2 h2)
  · rcases cases h2 with ⟨rfl, rfl⟩ | ⟨hne, h2⟩
    · exact (setLevel_same (G' := G') hs).symm.nocycle r.closed r.nocycle
    · exact (setLevel_same_other w hs r h2 hne).nocycle (w.closed g2 s2 h2) (w.nocycle g2 s2 h2)
  · rw [setLevel_isSome hs] at hg2
    obtain ⟨s2, h2⟩ := Option.isSome_iff_exists.mp hg2
    rw [(setLevel_kept hs r (w.lt g2 s2 h2).1).1] at hout
    have := w.live g2 hg2 out hout ht hc
    unfold Tree.sig at this ⊢
    rw [setLevel_depth hs]
    exact setLevel_processes w hs r _ _ this
  · by_cases e : p < n
    · rw [hK p e] at ha
      obtain ⟨b1, b2, b3⟩ := setLevel_kept hs r e
      rw [b1, b2, b3, setLevel_none hs]
      rcases cases h2 with ⟨rfl, rfl⟩ | ⟨hne, h2⟩
      · exact w.arith g2 s hs p (r.kept p hp e).1 ha
      · exact w.arith g2 s2 h2 p hp ha
    · rcases cases h2 with ⟨rfl, rfl⟩ | ⟨hne, h2⟩
      · obtain ⟨c1, cn, c2⟩ := r.new p hp (by omega)
        have ho : (T.setLevel g2 G').obj p = G'.obj p := by rw [setLevel_obj hs, if_pos hp]
        rw [ho, setLevel_none hs]
        refine ⟨hsub p (by omega), fun hm => ?_, fun hm => ?_, harith p hp (by omega) ha, ⟨_, c2, rfl⟩, c1⟩
        · obtain ⟨⟨x, m⟩, hx, rfl⟩ := List.mem_map.mp hm
          exact e ((w.lt g2 s hs).2 _ (w.ins g2 s hs _ _ hx).1)
        · exact e ((w.lt g2 s hs).2 _ (w.outs g2 s hs _ hm).1)
      · exact absurd ((w.lt g2 s2 h2).2 p hp) e
  · have key : ∀ g3 s3, T.sub g3 = some s3 → K' g3 = .other ∧ ∀ x ∈ s3.ins.map (·.1), K' x = .other := by
      intro g3 s3 h3
      refine ⟨by rw [hK _ (w.lt g3 s3 h3).1]; exact (w.other g3 s3 h3).1, fun x hx => ?_⟩
      obtain ⟨⟨y, m⟩, hy, rfl⟩ := List.mem_map.mp hx
      rw [hK _ ((w.lt g3 s3 h3).2 _ (w.ins g3 s3 h3 y m hy).1)]
      exact (w.other g3 s3 h3).2 y hx
    rcases cases h2 with ⟨rfl, rfl⟩ | ⟨hne, h2⟩
    · exact key g2 s hs
    · exact key g2 s2 h2
  · rcases cases h2 with ⟨rfl, rfl⟩ | ⟨hne, h2⟩
    · rw [setLevel_obj hs, if_pos hp] at hl
      exact hsends p hp l hl c hc ha
    · rw [setLevel_obj hs, if_neg (setLevel_other w hs r h2 hne hp)] at hl
      have hlt := (w.lt g2 s2 h2).2 _ (w.closed g2 s2 h2 p hp _ ⟨l, hl, c, hc, rfl⟩)
      rw [hK _ hlt] at ha
      exact w.sends g2 s2 h2 p hp l hl c hc ha

/-! ### signals -/

/-- the objects in `M` say nothing -/
def blind (M : Nat → Bool) (F : Nat → List α → List α) (o : Nat) (l : List α) : List α := if M o then [] else F o l

theorem level_flow [AddCommMonoid α] {F : Nat → List α → List α} {inp : Nat → α} {env : Nat → Nat → α} (f : SumTreeFlow T F inp env)
    (hs : T.sub g = some s) : SumFlow (T.masked s) (blind (T.opaq s) F) inp env := by
  refine ⟨f.ext g s hs, fun o ho h1 h2 k v hv => ?_⟩
  have h1 : ((T.obj o).signal || T.opaq s o) = true := h1
  have hv : (blind (T.opaq s) F o ((T.obj o).inlets.map (inletSum env)))[k]? = some v := hv
  unfold blind at hv
  split at hv
  · simp at hv
  · rename_i e
    have e : T.opaq s o = false := by simpa using e
    rw [e, Bool.or_false] at h1
    refine f.obj g s hs o ho ?_ h1 h2 k v hv
    simp only [Tree.opaq, Bool.or_eq_false_iff] at e
    simpa using e.1

theorem headSum_map [AddCommMonoid α] (env : Nat → Nat → α) (ls : List Inlet) (i : Nat) :
    headSum env (ls.drop i) = ((ls.map (inletSum env)).drop i).headD 0 := by
  rw [← List.map_drop]
  cases ls.drop i <;> rfl

theorem sums_congr [AddCommMonoid α] {env env' : Nat → Nat → α} {ls : List Inlet} {n : Nat} (he : ∀ p, p < n → env' p = env p)
    (h : ∀ l ∈ ls, ∀ c ∈ l.conns, c.src < n) : ls.map (inletSum env') = ls.map (inletSum env) := by
  refine List.map_congr_left fun l hl => ?_
  unfold inletSum
  congr 1
  refine List.map_congr_left fun c hc => ?_
  rw [he _ (h l hl c (List.mem_filter.mp hc).1)]

theorem set_flow [AddCommMonoid α] (w : TreePatch T K root rank n) (hs : T.sub g = some s) (r : LRef K (T.opaq s) (T.flat s) n G' n')
    {F : Nat → List α → List α} {inp : Nat → α} {env env' : Nat → Nat → α} (f : SumTreeFlow T F inp env) (he : ∀ p, p < n → env' p = env p)
    (f' : SumFlow (mask (T.opaq s) G') (blind (T.opaq s) F) inp env')
    (hsum : ∀ p ∈ G'.ids, p < n → (G'.obj p).inlets.map (inletSum env') = (T.obj p).inlets.map (inletSum env)) :
    SumTreeFlow (T.setLevel g G') F inp env' ∧ ∀ p, (p = root ∨ ∃ g2, Child (T.setLevel g G') p g2) → p < n →
      ((T.setLevel g G').obj p).inlets.map (inletSum env') = (T.obj p).inlets.map (inletSum env) := by
  have hroot : root ∉ G'.ids := by
    intro h
    obtain ⟨s0, h0⟩ := Option.isSome_iff_exists.mp w.isGraph
    exact w.top g ⟨s, hs, (r.kept root h (w.lt root s0 h0).1).1⟩
  have sums : ∀ p, (p = root ∨ ∃ g2, Child (T.setLevel g G') p g2) → p < n →
      ((T.setLevel g G').obj p).inlets.map (inletSum env') = (T.obj p).inlets.map (inletSum env) := by
    rintro p hp hpn
    rw [setLevel_obj hs]
    by_cases e : p ∈ G'.ids
    · rw [if_pos e]; exact hsum p e hpn
    · rw [if_neg e]
      refine sums_congr he fun l hl c hc => ?_
      rcases hp with rfl | ⟨g2, h2⟩
      · rw [w.rootIn l hl] at hc; simp at hc
      · obtain ⟨s2, h3, h4⟩ := setLevel_oldchild hs r hpn h2
        exact (w.lt g2 s2 h3).2 _ (w.closed g2 s2 h3 p h4 _ ⟨l, hl, c, hc, rfl⟩)
  have cases : ∀ {g2 s2}, (T.setLevel g G').sub g2 = some s2 → (g2 = g ∧ s2 = { s with ids := G'.ids }) ∨ (g2 ≠ g ∧ T.sub g2 = some s2) := by
    intro g2 s2 h
    rw [setLevel_sub hs] at h
    by_cases e : g2 = g
    · rw [if_pos e] at h
      cases h
      exact Or.inl ⟨e, rfl⟩
    · rw [if_neg e] at h
      exact Or.inr ⟨e, h⟩
  have hg : ∀ g2 s2, (T.setLevel g G').sub g2 = some s2 → ∃ s3, T.sub g2 = some s3 ∧ s2.ins = s3.ins ∧ s2.outs = s3.outs := by
    intro g2 s2 h
    rcases cases h with ⟨rfl, rfl⟩ | ⟨-, h⟩
    · exact ⟨s, hs, rfl, rfl⟩
    · exact ⟨s2, h, rfl, rfl⟩
  refine ⟨⟨fun g2 s2 h2 p hp k out ch hk hc => ?_, fun g2 s2 h2 o ho hn hsig hd k v hv => ?_, fun g2 s2 h2 i x m hi => ?_, fun g2 s2 h2 i x hi => ?_⟩, sums⟩
  · rcases cases h2 with ⟨rfl, rfl⟩ | ⟨hne, h2⟩
    · rw [setLevel_obj hs, if_pos hp] at hk
      exact f'.ext p hp k out ch hk hc
    · rw [setLevel_obj hs, if_neg (setLevel_other w hs r h2 hne hp)] at hk
      rw [he p ((w.lt g2 s2 h2).2 p hp)]
      exact f.ext g2 s2 h2 p hp k out ch hk hc
  · rw [setLevel_none hs] at hn
    rcases cases h2 with ⟨rfl, rfl⟩ | ⟨hne, h2'⟩
    · have ho : o ∈ G'.ids := ho
      have e : (T.setLevel g2 G').obj o = G'.obj o := by rw [setLevel_obj hs, if_pos ho]
      rw [e] at hsig hd hv
      have hop : T.opaq s o = false := by
        by_contra h
        have h : T.opaq s o = true := by simpa using h
        simp only [Tree.opaq, hn, Option.isSome_none, Bool.false_or] at h
        obtain ⟨⟨x, m⟩, hx, rfl⟩ := List.mem_map.mp (opaq_ins.mp h)
        obtain ⟨a1, -, a3, -⟩ := w.ins g2 s hs x m hx
        simp only at hsig ho
        rw [(r.kept x ho ((w.lt g2 s hs).2 x a1)).2.2.1] at hsig
        have hsig : (T.obj x).signal = true := hsig
        rw [a3] at hsig
        simp at hsig
      refine f'.obj o ho (by simp [mask, hsig]) hd k v ?_
      unfold blind
      rw [if_neg (by simp [hop])]
      exact hv
    · have ho' : o < n := (w.lt g2 s2 h2').2 o ho
      rw [sums o (Or.inr ⟨g2, s2, h2, ho⟩) ho'] at hv
      rw [setLevel_obj hs, if_neg (setLevel_other w hs r h2' hne ho)] at hsig hd
      rw [he o ho']
      exact f.obj g2 s2 h2' o ho hn hsig hd k v hv
  · obtain ⟨s3, h3, e1, -⟩ := hg g2 s2 h2
    rw [e1] at hi
    have hx := (w.ins g2 s3 h3 x m (List.mem_of_getElem? hi)).1
    have hg2 : g2 = root ∨ ∃ g', Child (T.setLevel g G') g2 g' := by
      rcases w.inGraph g2 (by simp [h3]) with h | ⟨g', s', h4, h5⟩
      · exact Or.inl h
      · refine Or.inr ⟨g', (setLevel_child hs _ _).mpr ?_⟩
        by_cases e : g' = g
        · subst e
          rw [hs] at h4
          cases h4
          refine Or.inl ⟨rfl, ?_⟩
          by_cases e : g2 ∈ G'.ids
          · exact e
          · have := (w.arith g' s hs g2 h5 (r.gone g2 h5 e)).1
            rw [this] at h3
            simp at h3
        · exact Or.inr ⟨e, s', h4, h5⟩
    rw [headSum_map, sums g2 hg2 (w.lt g2 s3 h3).1, ← headSum_map, he x ((w.lt g2 s3 h3).2 x hx)]
    exact f.enters g2 s3 h3 i x m hi
  · obtain ⟨s3, h3, -, e1⟩ := hg g2 s2 h2
    rw [e1] at hi
    have hx := w.outs g2 s3 h3 x (List.mem_of_getElem? hi)
    have hxn := (w.lt g2 s3 h3).2 x hx.1
    have hc : Child (T.setLevel g G') x g2 := by
      refine (setLevel_child hs _ _).mpr ?_
      by_cases e : g2 = g
      · subst e
        rw [hs] at h3
        cases h3
        refine Or.inl ⟨rfl, ?_⟩
        by_cases e : x ∈ G'.ids
        · exact e
        · exact absurd (List.mem_of_getElem? hi) (w.arith g2 s hs x hx.1 (r.gone x hx.1 e)).2.2.1
      · exact Or.inr ⟨e, s3, h3, hx.1⟩
    have h0 := headSum_map env' ((T.setLevel g G').obj x).inlets 0
    have h1 := headSum_map env (T.obj x).inlets 0
    rw [List.drop_zero] at h0 h1
    rw [h0, sums x (Or.inr ⟨g2, hc⟩) hxn, ← h1, he g2 (w.lt g2 s3 h3).1]
    exact f.leaves g2 s3 h3 i x hi

end


/-! ### the passes -/

/-- what the passes guarantee -/
structure TRef (root : Nat) (rank : Nat → Nat) (k : KTree) (n : Nat) (k' : KTree) (n' : Nat) : Prop where
  le : n ≤ n'
  depth : k'.t.depth = k.t.depth
  kind : ∀ p, p < n → k'.kind p = k.kind p
  patch : TreePatch k'.t k'.kind root rank n'
  graphs : ∀ g s, k.t.sub g = some s → ∃ s', k'.t.sub g = some s' ∧ s'.ins = s.ins ∧ s'.outs = s.outs ∧
    (∀ p ∈ s.ids, p ∉ s'.ids → Arith (k.kind p)) ∧ (∀ p ∈ s'.ids, p < n → p ∈ s.ids) ∧
    ∀ p ∈ s'.ids, p < n → Leads (k.t.flat s) p → Leads (k'.t.flat s') p
  atoms : ∀ g, k.t.sub g = none → k'.t.sub g = none
  kept : ∀ p, p < n → (k'.t.obj p).outlets = (k.t.obj p).outlets ∧ (k'.t.obj p).signal = (k.t.obj p).signal ∧
    (k'.t.obj p).inlets.length = (k.t.obj p).inlets.length
  new : ∀ p g, Child k'.t p g → n ≤ p → ((k'.kind p = .add ∧ (k'.t.obj p).inlets.length = 2) ∨
    ((k'.kind p = .fma ∨ k'.kind p = .fms) ∧ (k'.t.obj p).inlets.length = 3)) ∧ ∃ cn, (k'.t.obj p).outlets = [⟨some .f, cn, .zero⟩]
  flow : ∀ {α : Type} [CommRing α] (F : Nat → List α → List α) (inp : Nat → α) (env : Nat → Nat → α), Interp k'.kind n' F →
    SumTreeFlow k.t F inp env → ∃ env', (∀ p, p < n → env' p = env p) ∧ SumTreeFlow k'.t F inp env' ∧
      ∀ p, (p = root ∨ ∃ g, Child k'.t p g) → p < n → (k'.t.obj p).inlets.map (inletSum env') = (k.t.obj p).inlets.map (inletSum env)

theorem TRef.refl {k : KTree} (w : TreePatch k.t k.kind root rank n) : TRef root rank k n k n :=
  ⟨Nat.le_refl _, rfl, fun _ _ => rfl, w, fun g s hs => ⟨s, hs, rfl, rfl, fun _ h h' => absurd h h', fun _ h _ => h, fun _ _ _ h => h⟩,
   fun _ h => h, fun _ _ => ⟨rfl, rfl, rfl⟩, fun p g ⟨s, hs, hp⟩ h => absurd ((w.lt g s hs).2 p hp) (by omega),
   fun _ _ env _ h => ⟨env, fun _ _ => rfl, h, fun _ _ _ => rfl⟩⟩

theorem TRef.child {k k' : KTree} {n' : Nat} (r : TRef root rank k n k' n') {p g : Nat} (h : Child k'.t p g) (hp : p < n) : Child k.t p g := by
  obtain ⟨s', h1, h2⟩ := h
  cases hs : k.t.sub g with
  | none => rw [r.atoms g hs] at h1; simp at h1
  | some s =>
    obtain ⟨s'', a1, -, -, -, a5, -⟩ := r.graphs g s hs
    rw [h1] at a1
    cases a1
    exact ⟨s, hs, a5 p h2 hp⟩

theorem TRef.trans {k k1 k2 : KTree} {n1 n2 : Nat} (h1 : TRef root rank k n k1 n1) (h2 : TRef root rank k1 n1 k2 n2)
    (w : TreePatch k.t k.kind root rank n) : TRef root rank k n k2 n2 := by
  have hlt : ∀ p, p < n → p < n1 := fun p hp => Nat.lt_of_lt_of_le hp h1.le
  refine ⟨Nat.le_trans h1.le h2.le, h2.depth.trans h1.depth, fun p hp => (h2.kind p (hlt p hp)).trans (h1.kind p hp), h2.patch,
    fun g s hs => ?_, fun g hg => h2.atoms g (h1.atoms g hg), fun p hp => ?_, fun p g hp hpn => ?_, fun F inp env hF hf => ?_⟩
  · obtain ⟨s1, a1, a2, a3, a4, a5, a6⟩ := h1.graphs g s hs
    obtain ⟨s2, b1, b2, b3, b4, b5, b6⟩ := h2.graphs g s1 a1
    refine ⟨s2, b1, b2.trans a2, b3.trans a3, fun p hp hp2 => ?_, fun p hp hpn => a5 p (b5 p hp (hlt p hpn)) hpn, fun p hp hpn h => ?_⟩
    · by_cases e : p ∈ s1.ids
      · have := b4 p e hp2
        rwa [h1.kind p ((w.lt g s hs).2 p hp)] at this
      · exact a4 p hp e
    · exact b6 p hp (hlt p hpn) (a6 p (b5 p hp (hlt p hpn)) hpn h)
  · obtain ⟨a1, a2, a3⟩ := h1.kept p hp
    obtain ⟨b1, b2, b3⟩ := h2.kept p (hlt p hp)
    exact ⟨b1.trans a1, b2.trans a2, b3.trans a3⟩
  · by_cases e : p < n1
    · obtain ⟨a1, a2⟩ := h1.new p g (h2.child hp e) hpn
      obtain ⟨b1, -, b3⟩ := h2.kept p e
      rw [b1, b3, h2.kind p e]
      exact ⟨a1, a2⟩
    · exact h2.new p g hp (by omega)
  · obtain ⟨env1, a1, a2, a3⟩ := h1.flow F inp env (hF.mono h2.le h2.kind) hf
    obtain ⟨env2, b1, b2, b3⟩ := h2.flow F inp env1 hF a2
    refine ⟨env2, fun p hp => (b1 p (hlt p hp)).trans (a1 p hp), b2, fun p hp hpn => ?_⟩
    refine (b3 p hp (hlt p hpn)).trans (a3 p ?_ hpn)
    rcases hp with h | ⟨g, h⟩
    · exact Or.inl h
    · exact Or.inr ⟨g, h2.child h (hlt p hpn)⟩

/-- a step at one graph -/
theorem TRef.ofLevel {k : KTree} {g : Nat} {s : Sub} {G' : Graph} {n' : Nat} {K' : Nat → Kind} (w : TreePatch k.t k.kind root rank n)
    (hs : k.t.sub g = some s) (r : LRef k.kind (k.t.opaq s) (k.t.flat s) n G' n') (hrank : ∀ p, n ≤ p → rank p = 0)
    (hK : ∀ p, p < n → K' p = k.kind p)
    (hnew : ∀ p ∈ G'.ids, n ≤ p → (K' p = .add ∧ (G'.obj p).inlets.length = 2) ∨ ((K' p = .fma ∨ K' p = .fms) ∧ (G'.obj p).inlets.length = 3))
    (hsends : ∀ p ∈ G'.ids, ∀ l ∈ (G'.obj p).inlets, ∀ c ∈ l.conns, Arith (K' c.src) → c.isSignal = true)
    (hflow : ∀ {α : Type} [CommRing α] (F : Nat → List α → List α) (inp : Nat → α) (env : Nat → Nat → α), Interp K' n' F →
      SumFlow (k.t.masked s) F inp env → ∃ env', (∀ p, p < n → env' p = env p) ∧ SumFlow (mask (k.t.opaq s) G') F inp env' ∧
        ∀ p ∈ G'.ids, p < n → (G'.obj p).inlets.map (inletSum env') = (k.t.obj p).inlets.map (inletSum env)) :
    TRef root rank k n ⟨k.t.setLevel g G', K'⟩ n' := by
  have hop : ∀ p, k.t.opaq s p = true → p < n ∧ k.kind p = .other := by
    intro p h
    simp only [Tree.opaq, Bool.or_eq_true] at h
    rcases h with h | h
    · obtain ⟨s', h'⟩ := Option.isSome_iff_exists.mp h
      exact ⟨(w.lt p s' h').1, (w.other p s' h').1⟩
    · obtain ⟨⟨x, m⟩, hx, rfl⟩ := List.mem_map.mp (opaq_ins.mp h)
      exact ⟨(w.lt g s hs).2 _ (w.ins g s hs x m hx).1, (w.other g s hs).2 _ (opaq_ins.mp h)⟩
  refine ⟨r.le, setLevel_depth hs, hK, ?_, fun g2 s2 h2 => ?_, fun g2 h2 => (setLevel_none hs g2).mpr h2, fun p hp => setLevel_kept hs r hp,
    fun p g2 hp hpn => ?_, fun F inp env hF hf => ?_⟩
  · refine w.set hs r hrank K' hK (fun p hp hpn ha => ?_) hsends
    rcases hnew p hp hpn with h | ⟨h | h, -⟩
    · exact h.2
    · rw [h] at ha; simp [Arith] at ha
    · rw [h] at ha; simp [Arith] at ha
  · by_cases e : g2 = g
    · subst e
      rw [hs] at h2
      cases h2
      refine ⟨{ s with ids := G'.ids }, by rw [setLevel_sub hs, if_pos rfl], rfl, rfl, r.gone, fun p hp hpn => (r.kept p hp hpn).1, fun p hp hpn h => ?_⟩
      exact (setLevel_same (G' := G') hs).symm.leads r.closed (r.lead p hp hpn h)
    · refine ⟨s2, by rw [setLevel_sub hs, if_neg e]; exact h2, rfl, rfl, fun p h h' => absurd h h', fun p h _ => h, fun p hp hpn h => ?_⟩
      exact (setLevel_same_other w hs r h2 e).leads (w.closed g2 s2 h2) h
  · rcases (setLevel_child hs _ _).mp hp with ⟨rfl, h⟩ | ⟨-, s2, h2, h3⟩
    · have ho : (k.t.setLevel g2 G').obj p = G'.obj p := by rw [setLevel_obj hs, if_pos h]
      simp only [ho]
      exact ⟨hnew p h hpn, (r.new p h hpn).2⟩
    · exact absurd ((w.lt g2 s2 h2).2 p h3) (by omega)
  · have hb : ∀ o, K' o ≠ .other → ∀ l, blind (k.t.opaq s) F o l = F o l := by
      intro o h l
      unfold blind
      split
      · rename_i e
        obtain ⟨e1, e2⟩ := hop o e
        rw [hK o e1] at h
        exact absurd e2 h
      · rfl
    have hF' : Interp K' n' (blind (k.t.opaq s) F) :=
      ⟨fun o h1 h2 x y => by rw [hb o (by simp [h2]), hF.mul o h1 h2], fun o h1 h2 x y => by rw [hb o (by simp [h2]), hF.add o h1 h2],
       fun o h1 h2 x y => by rw [hb o (by simp [h2]), hF.sub o h1 h2], fun o h1 h2 x y z => by rw [hb o (by simp [h2]), hF.fma o h1 h2],
       fun o h1 h2 x y z => by rw [hb o (by simp [h2]), hF.fms o h1 h2]⟩
    obtain ⟨env', e1, e2, e3⟩ := hflow (blind (k.t.opaq s) F) inp env hF' (level_flow hf hs)
    obtain ⟨e4, e5⟩ := set_flow w hs r hf e1 e2 e3
    exact ⟨env', e1, e4, e5⟩

theorem setLevel_self {g : Nat} {s : Sub} (hs : T.sub g = some s) : T.setLevel g (T.flat s) = T := by
  have e1 : (fun p => if p ∈ (T.flat s).ids then (T.flat s).obj p else T.obj p) = T.obj := by
    funext p
    by_cases e : p ∈ (T.flat s).ids
    · exact if_pos e
    · exact if_neg e
  have e2 : (fun x => if x = g then some { s with ids := (T.flat s).ids } else T.sub x) = T.sub := by
    funext x
    by_cases e : x = g
    · simp [e, hs, Tree.flat]
    · simp [e]
  unfold Tree.setLevel
  rw [hs]
  simp only [e1, e2]

/-- one object in `cascade_expansion` -/
theorem cascadeAt_ok {g o : Nat} {s : Sub} (w : TreePatch T K root rank n) (hs : T.sub g = some s) (ho : o ∈ s.ids)
    (hrank : ∀ p, n ≤ p → rank p = 0) (hK : ∀ p, n ≤ p → K p = .add) :
    TRef root rank ⟨T, K⟩ n ⟨(T.cascadeAt n g o).1, K⟩ (T.cascadeAt n g o).2 := by
  have hn : ∀ p ∈ s.ids, p < n := (w.lt g s hs).2
  have e : T.cascadeAt n g o = (T.setLevel g (cascadeObj (T.flat s) n o (List.range (T.obj o).inlets.length)).1,
      (cascadeObj (T.flat s) n o (List.range (T.obj o).inlets.length)).2) := by
    unfold Tree.cascadeAt
    rw [hs]
  rw [e]
  obtain ⟨c1, -, -⟩ := cascadeObj_ok (List.range (T.obj o).inlets.length) (T.flat s) n o hn ho
  obtain ⟨c2, -, -⟩ := cascadeObj_ok (List.range (T.obj o).inlets.length) (T.masked s) n o hn ho
  have hm := mask_cascadeObj (T.opaq s) (List.range (T.obj o).inlets.length) (T.flat s) n o
  rw [show mask (T.opaq s) (T.flat s) = T.masked s from rfl] at hm
  rw [hm] at c2
  generalize cascadeObj (T.flat s) n o (List.range (T.obj o).inlets.length) = R at c1 c2
  obtain ⟨G', n'⟩ := R
  have r1 := c1.ref
  have r2 := c2.ref
  simp only at r1 r2
  obtain ⟨new, eids, hnew⟩ := r1.ids
  have hids : ∀ p ∈ G'.ids, p < n → p ∈ s.ids := by
    intro p hp hpn
    rw [eids] at hp
    rcases List.mem_append.mp hp with h | h
    · exact h
    · have := (hnew p h).1; omega
  have hnw : ∀ p ∈ G'.ids, n ≤ p → p ∈ new := by
    intro p hp hpn
    rw [eids] at hp
    rcases List.mem_append.mp hp with h | h
    · have := hn p h; omega
    · exact h
  have hsub : ∀ p ∈ s.ids, p ∈ G'.ids := fun p hp => by rw [eids]; exact List.mem_append_left _ hp
  have hcl := w.closed g s hs
  have lr : LRef K (T.opaq s) (T.flat s) n G' n' := by
    refine ⟨r1.le, r1.lt hn, fun p hp hpn => ?_, fun p hp h => absurd (hsub p hp) h, fun p hp hpn => ?_, Or.inl hsub, r2.wf (w.level g s hs),
      r1.closed hcl, r1.nocycle hcl (w.nocycle g s hs), fun p hp hpn h => ?_⟩
    · have := hids p hp hpn
      exact ⟨this, r1.outlets p this, r1.signal p this, r1.inlets p this⟩
    · obtain ⟨a1, a2, a3, a4, a5⟩ := hnew p (hnw p hp hpn)
      exact ⟨a5, 1, a4⟩
    · obtain ⟨leaf, h1, h2, h3⟩ := h
      refine ⟨leaf, hsub leaf h1, ?_, r1.paths hcl p leaf h1 h3⟩
      unfold Leaf at h2 ⊢
      rw [r1.outlets leaf h1]
      exact h2
  refine TRef.ofLevel (k := ⟨T, K⟩) w hs lr hrank (fun _ _ => rfl) (fun p hp hpn => ?_) (fun p hp l hl c hc ha => ?_) fun F inp env hF hf => ?_
  · exact Or.inl ⟨hK p hpn, (hnew p (hnw p hp hpn)).2.2.1⟩
  · rcases r1.conns p hp l hl c hc with h | ⟨o0, ho0, l0, hl0, hc0⟩
    · exact h
    · exact w.sends g s hs o0 ho0 l0 hl0 c hc0 ha
  · have hadd : ∀ o, n ≤ o → o < n' → ∀ x y, F o [x, y] = [x + y] := fun o h1 h2 x y => hF.add o h2 (hK o h1) x y
    obtain ⟨env', e1, e2⟩ := r2.fwd F inp env hadd hcl hf
    refine ⟨env', e1, e2, fun p hp hpn => ?_⟩
    have hps := hids p hp hpn
    refine ((r2.back F inp env' hadd e2).2 p hps).trans ?_
    exact sums_congr e1 fun l hl c hc => hn _ (hcl p hps _ ⟨l, hl, c, hc, rfl⟩)

/-! ### `cascade_expansion` -/

/-- at most one signal at the inlets of `p` -/
def Tree.Few (T : Tree) (p : Nat) : Prop := ∀ l ∈ (T.obj p).inlets, (l.conns.filter (·.isSignal)).length ≤ 1

theorem cascadeAt_few {g o : Nat} {s : Sub} (w : TreePatch T K root rank n) (hs : T.sub g = some s) (ho : o ∈ s.ids) :
    (∀ p g', Child T p g' → Child (T.cascadeAt n g o).1 p g') ∧
    (∀ p g', Child T p g' → T.Few p → (T.cascadeAt n g o).1.Few p) ∧
    (∀ p g', Child (T.cascadeAt n g o).1 p g' → n ≤ p → (T.cascadeAt n g o).1.Few p) ∧ (T.cascadeAt n g o).1.Few o := by
  have hn : ∀ p ∈ s.ids, p < n := (w.lt g s hs).2
  have e : T.cascadeAt n g o = (T.setLevel g (cascadeObj (T.flat s) n o (List.range (T.obj o).inlets.length)).1,
      (cascadeObj (T.flat s) n o (List.range (T.obj o).inlets.length)).2) := by
    unfold Tree.cascadeAt
    rw [hs]
  rw [e]
  obtain ⟨c1, c2, -⟩ := cascadeObj_ok (List.range (T.obj o).inlets.length) (T.flat s) n o hn ho
  generalize cascadeObj (T.flat s) n o (List.range (T.obj o).inlets.length) = R at c1 c2
  obtain ⟨G', n'⟩ := R
  simp only at c1 c2 ⊢
  obtain ⟨new, eids, hnew⟩ := c1.ref.ids
  have hsub : ∀ p ∈ s.ids, p ∈ G'.ids := fun p hp => by rw [eids]; exact List.mem_append_left _ hp
  have few : ∀ p ∈ G'.ids, (∀ j, Few G' p j) → (T.setLevel g G').Few p := by
    intro p hp h l hl
    rw [setLevel_obj hs, if_pos hp] at hl
    obtain ⟨j, hj⟩ := List.mem_iff_getElem?.mp hl
    exact h j l hj
  refine ⟨fun p g' ⟨s', h1, h2⟩ => ?_, fun p g' ⟨s', h1, h2⟩ hf => ?_, fun p g' hp hpn => ?_, ?_⟩
  · rw [setLevel_child hs]
    by_cases e : g' = g
    · subst e
      rw [hs] at h1
      cases h1
      exact Or.inl ⟨rfl, hsub p h2⟩
    · exact Or.inr ⟨e, s', h1, h2⟩
  · by_cases e : p ∈ G'.ids
    · refine few p e fun j => ?_
      have hps : p ∈ s.ids := by
        rw [eids] at e
        rcases List.mem_append.mp e with h | h
        · exact h
        · have a := (hnew p h).1
          have b := (w.lt g' s' h1).2 p h2
          omega
      exact c1.keep p hps j fun l hl => hf l (List.mem_of_getElem? hl)
    · intro l hl
      rw [setLevel_obj hs, if_neg e] at hl
      exact hf l hl
  · rcases (setLevel_child hs _ _).mp hp with ⟨rfl, h⟩ | ⟨-, s2, h2, h3⟩
    · refine few p h fun j => ?_
      rw [eids] at h
      rcases List.mem_append.mp h with h | h
      · have := hn p h; omega
      · exact c1.new p (hnew p h).1 (hnew p h).2.1 j
    · exact absurd ((w.lt g' s2 h2).2 p h3) (by omega)
  · refine few o (hsub o ho) fun j => ?_
    by_cases hj : j < (T.obj o).inlets.length
    · exact c2 j (by simpa using hj)
    · intro l hl
      have := (List.getElem?_eq_some_iff.mp hl).1
      rw [c1.ref.inlets o ho] at this
      exact absurd this hj

theorem cascadeAll_ok (vs : List (Nat × Nat)) : ∀ (T : Tree) (n : Nat), TreePatch T K root rank n → (∀ p, n ≤ p → rank p = 0) →
    (∀ p, n ≤ p → K p = .add) → (∀ v ∈ vs, Child T v.2 v.1) →
    TRef root rank ⟨T, K⟩ n ⟨(T.cascadeAll n vs).1, K⟩ (T.cascadeAll n vs).2 ∧
    (∀ p g, Child T p g → Child (T.cascadeAll n vs).1 p g) ∧
    (∀ p g, Child T p g → T.Few p → (T.cascadeAll n vs).1.Few p) ∧
    (∀ p g, Child (T.cascadeAll n vs).1 p g → n ≤ p → (T.cascadeAll n vs).1.Few p) ∧ ∀ v ∈ vs, (T.cascadeAll n vs).1.Few v.2 := by
  induction vs with
  | nil =>
    intro T n w _ _ _
    exact ⟨TRef.refl (k := ⟨T, K⟩) w, fun _ _ h => h, fun _ _ _ h => h,
      fun p g ⟨s, h1, h2⟩ h => absurd ((w.lt g s h1).2 p h2) (by omega), by simp⟩
  | cons v vs ih =>
    intro T n w hrank hK hvs
    obtain ⟨g, o⟩ := v
    obtain ⟨s, hs, ho⟩ := hvs (g, o) (by simp)
    simp only at hs ho
    have r := cascadeAt_ok w hs ho hrank hK
    obtain ⟨f1, f2, f3, f4⟩ := cascadeAt_few w hs ho
    have e : T.cascadeAll n ((g, o) :: vs) = (T.cascadeAt n g o).1.cascadeAll (T.cascadeAt n g o).2 vs := rfl
    rw [e]
    generalize T.cascadeAt n g o = R at r f1 f2 f3 f4 ⊢
    obtain ⟨T1, n1⟩ := R
    simp only at r f1 f2 f3 f4 ⊢
    have hle : n ≤ n1 := r.le
    obtain ⟨i1, i2, i3, i4, i5⟩ := ih T1 n1 r.patch (fun p hp => hrank p (by omega)) (fun p hp => hK p (by omega))
      fun v hv => f1 _ _ (hvs v (by simp [hv]))
    refine ⟨r.trans i1 w, fun p g h => i2 p g (f1 p g h), fun p g h hf => i3 p g (f1 p g h) (f2 p g h hf), fun p g' h hpn => ?_, fun v hv => ?_⟩
    · by_cases e : p < n1
      · have hc := i1.child h e
        exact i3 p g' hc (f3 p g' hc hpn)
      · exact i4 p g' h (by omega)
    · rcases List.mem_cons.mp hv with rfl | hv
      · exact i3 o g (f1 o g ⟨s, hs, ho⟩) f4
      · exact i5 v hv

/-! ### the visits -/

theorem visits_child (f : Nat) : ∀ g, ∀ v ∈ T.visits f g, Child T v.2 v.1 := by
  induction f with
  | zero => intro g v hv; simp [Tree.visits] at hv
  | succ f ih =>
    intro g v hv
    rw [Tree.visits] at hv
    cases hs : T.sub g with
    | none => rw [hs] at hv; simp at hv
    | some s =>
      rw [hs] at hv
      obtain ⟨o, ho, h⟩ := List.mem_flatMap.mp hv
      rcases List.mem_cons.mp h with rfl | h
      · exact ⟨s, hs, ho⟩
      · exact ih o v h

theorem visits_all (w : TreePatch T K root rank n) {g : Nat} {s : Sub} (hs : T.sub g = some s) {o : Nat} (ho : o ∈ s.ids) (f : Nat) :
    ∀ r, rank r < f → Under T g r → (g, o) ∈ T.visits f r := by
  induction f with
  | zero => intro r h; omega
  | succ f ih =>
    intro r hr hu
    rcases ReflTransGen.cases_tail hu with rfl | ⟨c, h1, h2⟩
    · rw [Tree.visits, hs]
      exact List.mem_flatMap.mpr ⟨o, ho, by simp⟩
    · have hrk := w.nest c r h2
      obtain ⟨s', h3, h4⟩ := h2
      rw [Tree.visits, h3]
      exact List.mem_flatMap.mpr ⟨c, h4, List.mem_cons_of_mem _ (ih c (by omega) h1)⟩

theorem TreePatch.under (w : TreePatch T K root rank n) {g : Nat} (hg : (T.sub g).isSome) : Under T g root := by
  obtain ⟨M, hM⟩ : ∃ M, ∀ g < n, rank g ≤ M := by
    clear w hg
    induction n with
    | zero => exact ⟨0, fun g h => by omega⟩
    | succ n ih =>
      obtain ⟨M, h⟩ := ih
      refine ⟨max M (rank n), fun g hg => ?_⟩
      rcases Nat.lt_succ_iff_lt_or_eq.mp hg with h1 | rfl
      · exact Nat.le_trans (h g h1) (Nat.le_max_left _ _)
      · exact Nat.le_max_right _ _
  have key : ∀ k g, (T.sub g).isSome → M ≤ rank g + k → Under T g root := by
    intro k
    induction k with
    | zero =>
      intro g hg hk
      rcases w.inGraph g hg with rfl | ⟨g', s', h1, h2⟩
      · exact .refl
      · have a := w.nest g g' ⟨s', h1, h2⟩
        have b := hM g' (w.lt g' s' h1).1
        omega
    | succ k ih =>
      intro g hg hk
      rcases w.inGraph g hg with rfl | ⟨g', s', h1, h2⟩
      · exact .refl
      · have a := w.nest g g' ⟨s', h1, h2⟩
        exact .head ⟨s', h1, h2⟩ (ih g' (by simp [h1]) (by omega))
  exact key M g hg (by omega)

/-- **C33** for patches with subpatches: afterwards at most one signal arrives at an inlet anywhere, all objects are still there, and
the signals at them are the same -/
theorem tree_cascade_correct (w : TreePatch T K root rank n) (hrank : ∀ p, n ≤ p → rank p = 0) (hK : ∀ p, n ≤ p → K p = .add) :
    TRef root rank ⟨T, K⟩ n ⟨(T.cascade n root).1, K⟩ (T.cascade n root).2 ∧ (T.cascade n root).1.One ∧
    ∀ p g, Child T p g → Child (T.cascade n root).1 p g := by
  obtain ⟨h1, h2, h3, h4, h5⟩ := cascadeAll_ok (T.visits (T.depth + 1) root) T n w hrank hK (visits_child _ _)
  refine ⟨h1, fun g s hs o ho => ?_, h2⟩
  by_cases e : o < n
  · obtain ⟨s0, h6, h7⟩ := h1.child ⟨s, hs, ho⟩ e
    have hd := w.depth
    exact h5 (g, o) (visits_all w h6 h7 _ root (by omega) (w.under (by simp [show T.sub g = some s0 from h6])))
  · exact h4 o g ⟨s, hs, ho⟩ (by omega)

/-! ### `fma_replacement` -/

theorem flow_of_sum [AddCommMonoid α] {G : Graph} (one : ∀ o ∈ G.ids, ∀ l ∈ (G.obj o).inlets, (l.conns.filter (·.isSignal)).length ≤ 1)
    {F : Nat → List α → List α} {inp : Nat → α} {env : Nat → Nat → α} : SumFlow G F inp env ↔ Flow G F inp env := by
  have hval : ∀ q ∈ G.ids, (G.obj q).inlets.map (inletVal env) = (G.obj q).inlets.map (inletSum env) :=
    fun q hq => List.map_congr_left fun l hl => inletVal_eq env l (one q hq l hl)
  constructor
  · intro hf
    exact ⟨hf.ext, fun o ho hs hd k v hv => hf.obj o ho hs hd k v (by rw [← hval o ho]; exact hv)⟩
  · intro hf
    exact ⟨hf.ext, fun o ho hs hd k v hv => hf.obj o ho hs hd k v (by rw [hval o ho]; exact hv)⟩

/-- one object in `fma_replacement` -/
theorem fmaAt_ok {k : KTree} {g o : Nat} {s : Sub} (w : TreePatch k.t k.kind root rank n) (one : k.t.One) (hs : k.t.sub g = some s)
    (ho : k.kind o = .mul → o ∈ s.ids) (hrank : ∀ p, n ≤ p → rank p = 0) :
    TRef root rank k n (k.fmaAt n g o).1 (k.fmaAt n g o).2 ∧ (k.fmaAt n g o).1.t.One ∧
    ∀ p g', Child k.t p g' → k.kind p = .mul → p ≠ o → Child (k.fmaAt n g o).1.t p g' := by
  have hn : ∀ p ∈ s.ids, p < n := (w.lt g s hs).2
  have hstep : k.fmaAt n g o = (⟨k.t.setLevel g (KGraph.fmaStep ⟨k.t.flat s, k.kind⟩ n o).1.g,
      (KGraph.fmaStep ⟨k.t.flat s, k.kind⟩ n o).1.kind⟩, (KGraph.fmaStep ⟨k.t.flat s, k.kind⟩ n o).2) := by
    unfold KTree.fmaAt
    rw [hs]
  rw [hstep]
  unfold KGraph.fmaStep
  cases hm : KGraph.fmaMatch ⟨k.t.flat s, k.kind⟩ o with
  | none =>
    simp only [setLevel_self hs]
    exact ⟨TRef.refl w, one, fun p g' h _ _ => h⟩
  | some m =>
    simp only
    have hmul : k.kind o = .mul := by
      unfold KGraph.fmaMatch at hm
      split at hm
      · rename_i h; exact h.1
      · simp at hm
    have mw := w.level g s hs
    have onem : ∀ o ∈ (k.t.masked s).ids, ∀ l ∈ ((k.t.masked s).obj o).inlets, (l.conns.filter (·.isSignal)).length ≤ 1 := one g s hs
    have kw : KWF ⟨k.t.masked s, k.kind⟩ := by
      refine ⟨⟨mw.nodup, mw.kinds, onem, mw.source, mw.presets, mw.count⟩, fun p hp ha => ?_, w.sends g s hs⟩
      obtain ⟨-, -, -, h4, h5, h6⟩ := w.arith g s hs p hp ha
      exact ⟨h4, h5, by simp [Tree.masked, mask, Tree.flat, h6]⟩
    have f : Fused ⟨k.t.masked s, k.kind⟩ n o m := fmaMatch_fused kw (w.nocycle g s hs : NoCycle (k.t.masked s)).sig hn (ho hmul) hm
    have r := f.kref kw (w.closed g s hs) (w.nocycle g s hs : NoCycle (k.t.masked s)).sig
    have em := mask_fmaApply (k.t.opaq s) ⟨k.t.flat s, k.kind⟩ n o m
    have hids := @f.mem_ids
    rw [show mask (k.t.opaq s) (k.t.flat s) = k.t.masked s from rfl] at em
    rw [em] at r hids
    have hsig : ∀ p ∈ ((KGraph.fmaApply ⟨k.t.flat s, k.kind⟩ n o m).g).ids, p < n →
        ((KGraph.fmaApply ⟨k.t.flat s, k.kind⟩ n o m).g.obj p).signal = (k.t.obj p).signal := by
      intro p hp hpn
      have : p ≠ n := by omega
      simp [KGraph.fmaApply, this, Obj.moveSrc, Tree.flat]
    have hnew : ∀ p ∈ ((KGraph.fmaApply ⟨k.t.flat s, k.kind⟩ n o m).g).ids, n ≤ p →
        ((KGraph.fmaApply ⟨k.t.flat s, k.kind⟩ n o m).g.obj p).signal = true := by
      intro p hp hpn
      rcases hids.mp hp with ⟨h, -⟩ | rfl
      · exact absurd (hn p h) (by omega)
      · simp [KGraph.fmaApply]
    generalize KGraph.fmaApply ⟨k.t.flat s, k.kind⟩ n o m = k' at r hids hsig hnew
    obtain ⟨G', K'⟩ := k'
    simp only at r hids hsig hnew ⊢
    have hn' := r.lt hn
    have lr : LRef k.kind (k.t.opaq s) (k.t.flat s) n G' (n + 1) := by
      refine ⟨r.le, hn', fun p hp hpn => ?_, fun p hp h => (r.gone p hp h).1, fun p hp hpn => ⟨hnew p hp hpn, ?_⟩, r.fused,
        ⟨r.kwf.wf.nodup, r.kwf.wf.kinds, r.kwf.wf.source, r.kwf.wf.presets, r.kwf.wf.count⟩, r.closed, r.nocycle (w.nocycle g s hs), r.lead⟩
      · obtain ⟨a1, a2, -, a4⟩ := r.kept p hp hpn
        exact ⟨a1, a2, hsig p hp hpn, a4⟩
      · exact (r.new p hp hpn).2.2
    refine ⟨TRef.ofLevel w hs lr hrank r.kind (fun p hp hpn => ?_) r.kwf.sig fun F inp env hF hf => ?_, fun g2 s2 h2 p hp l hl => ?_,
      fun p g' hp hpk hpo => ?_⟩
    · obtain ⟨a1, a2, -⟩ := r.new p hp hpn
      exact Or.inr ⟨a1, a2⟩
    · obtain ⟨env', e1, e2, e3⟩ := r.fwd F inp env hF ((flow_of_sum onem).mp hf)
      refine ⟨env', e1, (flow_of_sum r.kwf.wf.one).mpr e2, fun p hp hpn => ?_⟩
      have hps := (r.kept p hp hpn).1
      have e4 := e3 p hp hpn
      have v1 : (G'.obj p).inlets.map (inletVal env') = (G'.obj p).inlets.map (inletSum env') :=
        List.map_congr_left fun l hl => inletVal_eq env' l (r.kwf.wf.one p hp l hl)
      have v2 : (k.t.obj p).inlets.map (inletVal env) = (k.t.obj p).inlets.map (inletSum env) :=
        List.map_congr_left fun l hl => inletVal_eq env l (onem p hps l hl)
      rw [← v1, ← v2]
      exact e4
    · rw [setLevel_sub hs] at h2
      by_cases e : g2 = g
      · rw [if_pos e] at h2
        cases h2
        rw [setLevel_obj hs, if_pos hp] at hl
        exact r.kwf.wf.one p hp l hl
      · rw [if_neg e] at h2
        rw [setLevel_obj hs, if_neg (setLevel_other w hs lr h2 e hp)] at hl
        exact one g2 s2 h2 p hp l hl
    · rw [setLevel_child hs]
      by_cases e : g' = g
      · subst e
        refine Or.inl ⟨rfl, hids.mpr (Or.inl ⟨?_, hpo, fun e => ?_⟩)⟩
        · obtain ⟨s', h1, h2⟩ := hp
          rw [hs] at h1
          cases h1
          exact h2
        · rw [e] at hpk
          obtain ⟨x, -, -, -, h | h | h⟩ := f.cases <;> exact absurd (h.1.symm.trans hpk) (by decide)
      · exact Or.inr ⟨e, hp⟩

theorem fmaAll_tree (vs : List (Nat × Nat)) : ∀ (k : KTree) (n : Nat), TreePatch k.t k.kind root rank n → k.t.One → (∀ p, n ≤ p → rank p = 0) →
    (vs.map (·.2)).Nodup → (∀ v ∈ vs, v.2 < n ∧ (k.t.sub v.1).isSome ∧ (k.kind v.2 = .mul → Child k.t v.2 v.1)) →
    TRef root rank k n (k.fmaAll n vs).1 (k.fmaAll n vs).2 ∧ (k.fmaAll n vs).1.t.One := by
  induction vs with
  | nil => exact fun k n w one _ _ _ => ⟨TRef.refl w, one⟩
  | cons v vs ih =>
    intro k n w one hrank hnd hvs
    obtain ⟨g, o⟩ := v
    obtain ⟨-, hg, hc⟩ := hvs (g, o) (by simp)
    obtain ⟨s, hs⟩ := Option.isSome_iff_exists.mp hg
    simp only at hs hc
    obtain ⟨hno, hnd⟩ := List.nodup_cons.mp hnd
    obtain ⟨r, one', keep⟩ := fmaAt_ok w one hs (fun h => by
      obtain ⟨s', h1, h2⟩ := hc h
      rw [hs] at h1
      cases h1
      exact h2) hrank
    have e : k.fmaAll n ((g, o) :: vs) = (k.fmaAt n g o).1.fmaAll (k.fmaAt n g o).2 vs := rfl
    rw [e]
    generalize k.fmaAt n g o = R at r one' keep ⊢
    obtain ⟨k1, n1⟩ := R
    simp only at r one' keep ⊢
    have hle : n ≤ n1 := r.le
    obtain ⟨i1, i2⟩ := ih k1 n1 r.patch one' (fun p hp => hrank p (by omega)) hnd fun v hv => by
      obtain ⟨a1, a2, a3⟩ := hvs v (by simp [hv])
      obtain ⟨s', hs'⟩ := Option.isSome_iff_exists.mp a2
      obtain ⟨s'', h1, -⟩ := r.graphs v.1 s' hs'
      refine ⟨by omega, by simp [h1], fun hk => ?_⟩
      rw [r.kind v.2 a1] at hk
      exact keep v.2 v.1 (a3 hk) hk fun e => hno (List.mem_map.mpr ⟨v, hv, e⟩)
    exact ⟨r.trans i1 w, i2⟩

theorem visits_under (wf : TreeWF T root rank) (f : Nat) : ∀ g, ∀ v ∈ T.visits f g, Under T v.2 g ∧ v.2 ≠ g := by
  induction f with
  | zero => intro g v hv; simp [Tree.visits] at hv
  | succ f ih =>
    intro g v hv
    rw [Tree.visits] at hv
    cases hs : T.sub g with
    | none => rw [hs] at hv; simp at hv
    | some s =>
      rw [hs] at hv
      obtain ⟨o, ho, h⟩ := List.mem_flatMap.mp hv
      have hc : Child T o g := ⟨s, hs, ho⟩
      rcases List.mem_cons.mp h with rfl | h
      · exact ⟨.single hc, under_child wf .refl hc⟩
      · obtain ⟨h1, -⟩ := ih o v h
        exact ⟨h1.tail hc, under_child wf h1 hc⟩

theorem visits_nodup (wf : TreeWF T root rank) (hnd : ∀ g s, T.sub g = some s → s.ids.Nodup) (f : Nat) :
    ∀ g, ((T.visits f g).map (·.2)).Nodup := by
  induction f with
  | zero => intro g; simp [Tree.visits]
  | succ f ih =>
    intro g
    rw [Tree.visits]
    cases hs : T.sub g with
    | none => simp
    | some s =>
      simp only
      rw [List.map_flatMap, List.nodup_flatMap]
      refine ⟨fun o ho => ?_, ?_⟩
      · rw [List.map_cons, List.nodup_cons]
        refine ⟨fun h => ?_, ih o⟩
        obtain ⟨v, hv, e⟩ := List.mem_map.mp h
        exact (visits_under wf f o v hv).2 e
      · refine (hnd g s hs).imp_of_mem ?_
        intro a b ha hb hab
        have key : ∀ c x, x ∈ ((g, c) :: T.visits f c).map (·.2) → Under T x c := by
          intro c x hx
          rw [List.map_cons] at hx
          rcases List.mem_cons.mp hx with rfl | hx
          · exact .refl
          · obtain ⟨v, hv, rfl⟩ := List.mem_map.mp hx
            exact (visits_under wf f c v hv).1
        intro x hx hx'
        exact hab (under_sib wf (key a x hx) (key b x hx') ⟨s, hs, ha⟩ ⟨s, hs, hb⟩)

/-- **C34** for patches with subpatches: the signals at all remaining objects are the same; only multiplications, additions and
subtractions are removed -/
theorem tree_fma_correct {k : KTree} (w : TreePatch k.t k.kind root rank n) (one : k.t.One) (hrank : ∀ p, n ≤ p → rank p = 0) :
    TRef root rank k n (k.fma n root).1 (k.fma n root).2 ∧ (k.fma n root).1.t.One := by
  refine fmaAll_tree _ k n w one hrank (visits_nodup (w.treeWF one) (fun g s hs => (w.level g s hs).nodup) _ _) fun v hv => ?_
  obtain ⟨s, h1, h2⟩ := visits_child _ _ v hv
  exact ⟨(w.lt _ s h1).2 _ h2, by simp [h1], fun _ => ⟨s, h1, h2⟩⟩

/-! ### the compiler -/

theorem TreePatch.recount (w : TreePatch T K root rank n) :
    TreePatch T (fun p => if n ≤ p then .add else K p) root (fun p => if n ≤ p then 0 else rank p) n := by
  have hr : ∀ p, p < n → (if n ≤ p then 0 else rank p) = rank p := fun p h => if_neg (by omega)
  have hk : ∀ p, p < n → (if n ≤ p then Kind.add else K p) = K p := fun p h => if_neg (by omega)
  have hg : ∀ g, (T.sub g).isSome → g < n := fun g h => by
    obtain ⟨s, hs⟩ := Option.isSome_iff_exists.mp h
    exact (w.lt g s hs).1
  have hc : ∀ a b, Child T a b → a < n ∧ b < n := fun a b ⟨s, hs, ha⟩ => ⟨(w.lt b s hs).2 a ha, (w.lt b s hs).1⟩
  refine { w with depth := ?_, nest := fun a b h => ?_, pos := fun g h => ?_, arith := fun g s hs p hp ha => ?_, other := fun g s hs => ?_, sends := fun g s hs p hp l hl c hcc ha => ?_ }
  · rw [hr root (hg root w.isGraph)]; exact w.depth
  · rw [hr a (hc a b h).1, hr b (hc a b h).2]; exact w.nest a b h
  · rw [hr g (hg g h)]; exact w.pos g h
  · rw [hk p ((w.lt g s hs).2 p hp)] at ha
    exact w.arith g s hs p hp ha
  · refine ⟨by rw [hk g (w.lt g s hs).1]; exact (w.other g s hs).1, fun x hx => ?_⟩
    obtain ⟨⟨y, m⟩, hy, rfl⟩ := List.mem_map.mp hx
    rw [hk _ ((w.lt g s hs).2 _ (w.ins g s hs y m hy).1)]
    exact (w.other g s hs).2 y hx
  · rw [hk _ ((w.lt g s hs).2 _ (w.closed g s hs p hp _ ⟨l, hl, c, hcc, rfl⟩))] at ha
    exact w.sends g s hs p hp l hl c hcc ha

/-- both passes -/
theorem tree_passes_correct (w : TreePatch T K root rank n) :
    TRef root (fun p => if n ≤ p then 0 else rank p) ⟨T, fun p => if n ≤ p then .add else K p⟩ n (T.passes K n root).1 (T.passes K n root).2 ∧
    (T.passes K n root).1.t.One := by
  have w' := w.recount
  obtain ⟨h1, h2, -⟩ := tree_cascade_correct w' (fun p hp => if_pos hp) (fun p hp => if_pos hp)
  have hle := h1.le
  obtain ⟨h3, h4⟩ := tree_fma_correct (k := ⟨(T.cascade n root).1, fun p => if n ≤ p then .add else K p⟩) h1.patch h2
    (fun p hp => if_pos (by omega))
  exact ⟨h1.trans h3 w', h4⟩

theorem order_leads (wf : TreeWF T root rank) (hl : ∀ g s, T.sub g = some s → ∀ x ∈ s.ids, (T.sub x).isSome → Leads (T.flat s) x)
    (o : Nat) (ho : T.sub o = none) (hsig : (T.obj o).signal = true) (hlo : ∀ g s, T.sub g = some s → o ∈ s.ids → Leads (T.flat s) o) (f : Nat) :
    ∀ g, rank g < f → Under T g root → Under T o g → o ≠ g → o ∈ T.order f g ∧ T.sig g = true := by
  induction f with
  | zero => intro g h; omega
  | succ f ih =>
    intro g hr hu hog hne
    rcases ReflTransGen.cases_tail hog with rfl | ⟨c, h4, hcg⟩
    · exact absurd rfl hne
    · obtain ⟨s, hs, hx⟩ := id hcg
      have hrk := wf.nest c g hcg
      have key : T.sig c = true ∧ o ∈ (if (T.sub c).isSome then T.order f c else [c]) ∧ Leads (T.flat s) c := by
        by_cases hoc : o = c
        · subst hoc
          exact ⟨by rw [sig_atom ho]; exact hsig, by simp [ho], hlo g s hs hx⟩
        · obtain ⟨h1, h2⟩ := ih c (by omega) (.head hcg hu) h4 hoc
          have hcs : (T.sub c).isSome := by
            rcases ReflTransGen.cases_tail h4 with h | ⟨z, -, s'', h7, -⟩
            · exact absurd h.symm hoc
            · simp [h7]
          exact ⟨h2, by rw [if_pos hcs]; exact h1, hl g s hs c hx hcs⟩
      refine ⟨?_, (sig_graph wf hu hs).mpr ⟨c, hx, Or.inl key.1⟩⟩
      rw [Tree.order, hs]
      simp only
      refine List.mem_flatMap.mpr ⟨c, ?_, key.2.1⟩
      exact ((signal_order_correct _ (level_closed wf hs)).2.1 c).mpr ⟨key.1, key.2.2⟩

theorem exec_ids (F : Nat → List α → List α) (ss : List Step) : ∀ s : Store α, (exec F s ss).2.map (·.1) = ss.map (·.id) := by
  induction ss with
  | nil => intro s; rfl
  | cons x xs ih => intro s; simp [exec, ih]

theorem headVal_eq [AddCommMonoid α] (env : Nat → Nat → α) (ls : List Inlet) (h : ls.map (inletVal env) = ls.map (inletSum env)) :
    headVal env ls = headSum env ls := by
  cases ls with
  | nil => rfl
  | cons l ls =>
    simp only [List.map_cons, List.cons.injEq] at h
    exact h.1

theorem treeFlow_of_sum [AddCommMonoid α] (w : TreePatch T K root rank n) (one : T.One) {F : Nat → List α → List α} {inp : Nat → α} {env : Nat → Nat → α}
    (f : SumTreeFlow T F inp env) : TreeFlow T F inp env := by
  have hval : ∀ o g, Child T o g → ∀ l ∈ (T.obj o).inlets, inletVal env l = inletSum env l :=
    fun o g ⟨s, hs, ho⟩ l hl => inletVal_eq env l (one g s hs o ho l hl)
  have hroot : ∀ l ∈ (T.obj root).inlets, inletVal env l = inletSum env l := fun l hl => inletVal_eq env l (by rw [w.rootIn l hl]; simp)
  refine ⟨f.ext, fun g s hs o ho hn hsig hd k v hv => f.obj g s hs o ho hn hsig hd k v ?_, fun g s hs i x m hi => ?_, fun g s hs i x hi => ?_⟩
  · rw [← List.map_congr_left (hval o g ⟨s, hs, ho⟩)]
    exact hv
  · rw [f.enters g s hs i x m hi]
    refine (headVal_eq env _ (List.map_congr_left fun l hl => ?_)).symm
    rcases w.inGraph g (by simp [hs]) with rfl | ⟨g', hg'⟩
    · exact hroot l (List.mem_of_mem_drop hl)
    · exact hval g g' hg' l (List.mem_of_mem_drop hl)
  · rw [f.leaves g s hs i x hi]
    exact (headVal_eq env _ (List.map_congr_left (hval x g ⟨s, hs, (w.outs g s hs x (List.mem_of_getElem? hi)).1⟩))).symm

/-- **the signal compiler is correct**, for patches with subpatches in any depth and any number of signals at every inlet: let
`env` be the signals of the patch.  After `cascade_expansion` and `fma_replacement` in all subpatches the patch compiles, and the
process list, run for one block with arbitrary contents of the temporary buffers,
* leaves in every output channel the sum of the signals at all `[dac~]` objects for it, wherever they are;
* gives every object of the patch it runs exactly the signals that the patch gives it;
* runs nothing twice, and leaves out nothing that leads to a leaf of its graph, but fused arithmetic;
* uses only buffers that exist. -/
theorem tree_compiler_correct [CommRing α] (w : TreePatch T K root rank n)
    (hlead : ∀ g s, T.sub g = some s → ∀ o ∈ s.ids, (T.sub o).isSome → Leads (T.flat s) o)
    (hplain : ∀ o, (dacChan (T.obj o)).isSome → K o = .other)
    (F : Nat → List α → List α) (inp : Nat → α) (env : Nat → Nat → α) (flow : SumTreeFlow T F inp env)
    (hF : Interp (T.passes K n root).1.kind (T.passes K n root).2 F)
    (hdac : ∀ o g, Child T o g → T.sub o = none → (dacChan (T.obj o)).isSome → ∀ x y, F o [x, y] = [x + y])
    (hlen : ∀ o g, Child T o g → T.sub o = none → ∀ l, l.length = (T.obj o).inlets.length → (F o l).length = (T.obj o).outlets.length)
    (junk : Ty → Nat → α) :
    ∃ st ss, (T.passes K n root).1.t.compile root = .ok (st, ss) ∧
      (∀ (c : Nat) (L : List Nat), L.Nodup → (∀ o, o ∈ L ↔ (∃ g, Child T o g) ∧ T.sub o = none ∧ (T.obj o).signal = true ∧ dacChan (T.obj o) = some c) →
        (exec F (Store.start inp junk) ss).1 (.output c) = (L.map fun o => headSum env (T.obj o).inlets).sum) ∧
      (∀ x ∈ (exec F (Store.start inp junk) ss).2, (∃ g, Child T x.1 g) → dacChan (T.obj x.1) = none →
        x.2 = (T.obj x.1).inlets.map (inletSum env)) ∧
      (ss.map (·.id)).Nodup ∧
      (∀ g s, T.sub g = some s → ∀ o ∈ s.ids, T.sub o = none → (T.obj o).signal = true → Leads (T.flat s) o → ¬ Arith (K o) → o ∈ ss.map (·.id)) ∧
      (∀ o ∈ ss.map (·.id), o < n → T.sub o = none ∧ (T.obj o).signal = true ∧ ∃ g, Child T o g) ∧
      (∀ x ∈ ss, ∀ t i, Buf.tmp t i ∈ x.ins ∨ Buf.tmp t i ∈ x.outs → i < numBuffers (st.pool t)) ∧
      (∀ x ∈ ss, ∀ (k k' : Nat) (t : Ty) (i : Nat), x.outs[k]? = some (Buf.tmp t i) → x.outs[k']? = some (Buf.tmp t i) → k = k') := by
  obtain ⟨r, one⟩ := tree_passes_correct w
  generalize T.passes K n root = R at hF r one ⊢
  obtain ⟨⟨T', K'⟩, n'⟩ := R
  simp only at hF r one ⊢
  have w' := r.patch
  simp only at w'
  have wf := w'.treeWF one
  obtain ⟨env', e1, e2, e3⟩ := r.flow F inp env hF flow
  simp only at e2 e3
  have hchild : ∀ p g, Child T' p g → p < n → Child T p g := fun p g h hp => r.child h hp
  have hsub : ∀ p, p < n → (T'.sub p = none ↔ T.sub p = none) := by
    intro p _
    refine ⟨fun h => ?_, r.atoms p⟩
    cases hs : T.sub p with
    | none => rfl
    | some s =>
      obtain ⟨s', h1, -⟩ := r.graphs p s hs
      simp only at h1
      rw [h] at h1
      simp at h1
  have hstay : ∀ p g, Child T p g → ¬ Arith (K p) → Child T' p g := by
    intro p g ⟨s, hs, hp⟩ ha
    obtain ⟨s', h1, -, -, h4, -⟩ := r.graphs g s hs
    refine ⟨s', h1, ?_⟩
    by_contra h
    have hpn : ¬ n ≤ p := by have := (w.lt g s hs).2 p hp; omega
    have := h4 p hp h
    simp only [if_neg hpn] at this
    exact ha this
  have hdc : ∀ p, p < n → dacChan (T'.obj p) = dacChan (T.obj p) := fun p hp => by
    have := (r.kept p hp).1
    simp only at this
    simp [dacChan, this]
  have hnewd : ∀ p g, Child T' p g → n ≤ p → dacChan (T'.obj p) = none := by
    intro p g h hp
    obtain ⟨cn, h2⟩ := (r.new p g h hp).2
    simp only at h2
    simp [dacChan, h2]
  have hval : ∀ p g, Child T' p g → p < n → (T'.obj p).inlets.map (inletVal env') = (T.obj p).inlets.map (inletSum env) := by
    intro p g h hp
    rw [← e3 p (Or.inr ⟨g, h⟩) hp]
    obtain ⟨s, hs, hps⟩ := h
    exact List.map_congr_left fun l hl => inletVal_eq env' l (one g s hs p hps l hl)
  have hltc : ∀ p g, Child T p g → p < n := fun p g ⟨s, hs, hp⟩ => (w.lt g s hs).2 p hp
  have hltc' : ∀ p g, Child T' p g → p < n' := fun p g ⟨s, hs, hp⟩ => (w'.lt g s hs).2 p hp
  obtain ⟨st, ss, c1, c2, c3, c4, c5, c6⟩ := tree_compile_correct wf F inp env' (treeFlow_of_sum w' one e2)
    (fun o g hc hs hd => by
      by_cases e : o < n
      · rw [hdc o e] at hd
        exact hdac o g (hchild o g hc e) ((hsub o e).mp hs) hd
      · rw [hnewd o g hc (by omega)] at hd
        simp at hd)
    (fun o g hc hs l hl => by
      by_cases e : o < n
      · have hk := r.kept o e
        simp only at hk
        rw [hk.1]
        exact hlen o g (hchild o g hc e) ((hsub o e).mp hs) l (by rw [hl, hk.2.2])
      · obtain ⟨h1, cn, h2⟩ := r.new o g hc (by omega)
        simp only at h1 h2
        have ho := hltc' o g hc
        rw [h2]
        rcases h1 with ⟨k1, k2⟩ | ⟨k1 | k1, k2⟩ <;> rw [k2] at hl
        · match l, hl with
          | [x, y], _ => rw [hF.add o ho k1]; rfl
        · match l, hl with
          | [x, y, z], _ => rw [hF.fma o ho k1]; rfl
        · match l, hl with
          | [x, y, z], _ => rw [hF.fms o ho k1]; rfl) junk
  obtain ⟨t1, t2, -⟩ := tree_order_correct wf
  have hmem : ∀ o g s, T.sub g = some s → o ∈ s.ids → T.sub o = none → (T.obj o).signal = true → Leads (T.flat s) o → ¬ Arith (K o) →
      o ∈ T'.order (T'.depth + 1) root := by
    intro o g s hs ho hn hsig hlo ha
    have hon := (w.lt g s hs).2 o ho
    obtain ⟨s', h1, h2⟩ := hstay o g ⟨s, hs, ho⟩ ha
    have hd := wf.depth
    have hsig' : (T'.obj o).signal = true := by
      have := (r.kept o hon).2.1
      simp only at this
      rw [this]; exact hsig
    refine (order_leads wf (fun g2 s2 hs2 x hx hxs => ?_) o ((hsub o hon).mpr hn) hsig' (fun g2 s2 hs2 h3 => ?_) (T'.depth + 1) root (by omega) .refl
      (.head ⟨s', h1, h2⟩ (w'.under (by simp [h1]))) ?_).1
    · obtain ⟨sx, hsx⟩ := Option.isSome_iff_exists.mp hxs
      cases hsx0 : T.sub x with
      | none =>
        have := r.atoms x hsx0
        simp only at this
        rw [this] at hsx
        simp at hsx
      | some sx0 =>
        have hxn := (w.lt x sx0 hsx0).1
        obtain ⟨s0, a1, a2⟩ := hchild x g2 ⟨s2, hs2, hx⟩ hxn
        obtain ⟨s3, b1, -, -, -, -, b6⟩ := r.graphs g2 s0 a1
        simp only at b1
        rw [hs2] at b1
        cases b1
        exact b6 x hx hxn (hlead g2 s0 a1 x a2 (by simp [hsx0]))
    · have e : g2 = g := w'.parent o g2 g ⟨s2, hs2, h3⟩ ⟨s', h1, h2⟩
      subst e
      obtain ⟨s3, b1, -, -, -, -, b6⟩ := r.graphs g2 s hs
      simp only at b1
      rw [hs2] at b1
      cases b1
      exact b6 o h3 hon hlo
    · rintro rfl
      exact w'.top g ⟨s', h1, h2⟩
  refine ⟨st, ss, c1, fun c L hL hLm => ?_, fun x hx ⟨g, hg⟩ hd => ?_, by rw [c2]; exact t1,
    fun g s hs o ho hn hsig hlo ha => by rw [c2]; exact hmem o g s hs ho hn hsig hlo ha, fun o ho hon => ?_, c5, c6⟩
  · rw [c4]
    unfold outputSum
    have hp : ((T'.order (T'.depth + 1) root).filter fun o => dacChan (T'.obj o) = some c).Perm L := by
      refine (List.perm_ext_iff_of_nodup (t1.filter _) hL).mpr fun o => ?_
      rw [hLm o, List.mem_filter, decide_eq_true_eq]
      constructor
      · rintro ⟨h1, h2⟩
        obtain ⟨a1, a2, g, a3⟩ := t2 o h1
        by_cases e : o < n
        · rw [hdc o e] at h2
          have hk := (r.kept o e).2.1
          simp only at hk
          rw [hk] at a2
          exact ⟨⟨g, hchild o g a3 e⟩, (hsub o e).mp a1, a2, h2⟩
        · rw [hnewd o g a3 (by omega)] at h2
          simp at h2
      · rintro ⟨⟨g, s, hs, ho⟩, h2, h3, h4⟩
        have hon := (w.lt g s hs).2 o ho
        refine ⟨hmem o g s hs ho h2 h3 ⟨o, ho, ?_, .refl⟩ ?_, by rw [hdc o hon]; exact h4⟩
        · rcases (w.level g s hs).kinds o ho (by simp [Tree.masked, mask, Tree.flat, h3]) with h | ⟨conns, c', h⟩
          · have : dacChan (T.obj o) = none := dacChan_zero _ h.2
            rw [this] at h4
            simp at h4
          · have h5 : ((T.masked s).obj o).outlets = (dacObj conns c').outlets := congrArg Obj.outlets h
            have h5 : (T.obj o).outlets = (dacObj conns c').outlets := h5
            unfold Leaf
            intro out hout
            have hout : out ∈ (T.obj o).outlets := hout
            rw [h5] at hout
            simp only [dacObj, List.mem_cons, List.not_mem_nil, or_false] at hout
            rw [hout]
        · rw [hplain o (by simp [h4])]
          simp [Arith]
    refine (hp.map _).sum_eq.trans ?_
    congr 1
    refine List.map_congr_left fun o ho => ?_
    obtain ⟨⟨g, hg⟩, -, -, h4⟩ := (hLm o).mp ho
    have hg' : Child T' o g := hstay o g hg (by rw [hplain o (by simp [h4])]; simp [Arith])
    simp only
    rw [hval o g hg' (hltc o g hg)]
    have h0 := headSum_map env (T.obj o).inlets 0
    rw [List.drop_zero] at h0
    rw [h0]
    rfl
  · have hxn := hltc _ g hg
    have hxo : x.1 ∈ ss.map (·.id) := by
      rw [← exec_ids F ss (Store.start inp junk)]
      exact List.mem_map.mpr ⟨x, hx, rfl⟩
    rw [c2] at hxo
    obtain ⟨-, -, g', h'⟩ := t2 _ hxo
    rw [c3 x hx (by rw [hdc _ hxn]; exact hd), hval x.1 g' h' hxn]
  · rw [c2] at ho
    obtain ⟨a1, a2, g, a3⟩ := t2 o ho
    have hk := (r.kept o hon).2.1
    simp only at hk
    rw [hk] at a2
    exact ⟨(hsub o hon).mp a1, a2, g, hchild o g a3 hon⟩

/-! ### the hypotheses can be met -/

/-- `[osc~] → [pd voice] → [dac~ 1]`, the oscillator also goes to `[dac~ 1]` itself; `voice` computes `x * x + x` and sends it to its
outlet and to a `[dac~ 2]` of its own (0: patch, 1: osc~, 2: voice, 3: dac~; 4: inlet~, 5: *~, 6: +~, 7: outlet~, 8: dac~) -/
def voice : Tree where
  obj
    | 1 => ⟨[], [⟨some .f, 2, .zero⟩], true⟩
    | 2 => ⟨[⟨[⟨1, 0, true⟩], .zero⟩], [⟨some .f, 1, .zero⟩], false⟩
    | 3 => dacObj [⟨1, 0, true⟩, ⟨2, 0, true⟩] 0
    | 4 => ⟨[], [⟨some .f, 3, .zero⟩], false⟩
    | 5 => ⟨[⟨[⟨4, 0, true⟩], .zero⟩, ⟨[⟨4, 0, true⟩], .zero⟩], [⟨some .f, 1, .zero⟩], true⟩
    | 6 => ⟨[⟨[⟨5, 0, true⟩], .zero⟩, ⟨[⟨4, 0, true⟩], .zero⟩], [⟨some .f, 2, .zero⟩], true⟩
    | 7 => ⟨[⟨[⟨6, 0, true⟩], .zero⟩], [], false⟩
    | 8 => dacObj [⟨6, 0, true⟩] 1
    | _ => ⟨[], [], false⟩
  sub
    | 0 => some ⟨[1, 2, 3], [], []⟩
    | 2 => some ⟨[4, 5, 6, 7, 8], [(4, 3)], [7]⟩
    | _ => none
  depth := 2

/-- the arithmetic of `voice` -/
def voiceKind : Nat → Kind
  | 5 => .mul
  | 6 => .add
  | _ => .other

/-- nesting of `voice` -/
def voiceRank : Nat → Nat
  | 0 => 2
  | 2 => 1
  | _ => 0

theorem voice_sub {g : Nat} {s : Sub} (h : voice.sub g = some s) :
    (g = 0 ∧ s = ⟨[1, 2, 3], [], []⟩) ∨ (g = 2 ∧ s = ⟨[4, 5, 6, 7, 8], [(4, 3)], [7]⟩) := by
  match g, h with
  | 0, h => exact Or.inl ⟨rfl, (Option.some.inj h).symm⟩
  | 2, h => exact Or.inr ⟨rfl, (Option.some.inj h).symm⟩
  | 1, h => simp [voice] at h
  | n + 3, h => simp [voice] at h

theorem voice_child {a b : Nat} (h : Child voice a b) : (b = 0 ∧ (a = 1 ∨ a = 2 ∨ a = 3)) ∨ (b = 2 ∧ (a = 4 ∨ a = 5 ∨ a = 6 ∨ a = 7 ∨ a = 8)) := by
  obtain ⟨s, hs, ha⟩ := h
  rcases voice_sub hs with ⟨rfl, rfl⟩ | ⟨rfl, rfl⟩ <;> simpa using ha

theorem voice_obj (o : Nat) : o ≤ 8 ∨ voice.obj o = ⟨[], [], false⟩ := by
  match o with
  | 0 | 1 | 2 | 3 | 4 | 5 | 6 | 7 | 8 => left; omega
  | n + 9 => right; rfl

theorem voice_feeds {s : Sub} {p o : Nat} (h : Feeds (voice.flat s) p o) : p < o := by
  obtain ⟨l, hl, c, hc, rfl⟩ := h
  have hl : l ∈ (voice.obj o).inlets := hl
  have key : ∀ o ≤ 8, ∀ l ∈ (voice.obj o).inlets, ∀ c ∈ l.conns, c.src < o := by decide
  rcases voice_obj o with h | h
  · exact key o h l hl c hc
  · rw [h] at hl; simp at hl

theorem voice_reach {s : Sub} {p o : Nat} (h : Reach (voice.flat s) p o) : p ≤ o := by
  induction h with
  | refl => exact Nat.le_refl _
  | tail _ h ih => have := voice_feeds h; omega

theorem voice_presets (p k : Nat) (out : Outlet) (h : (voice.obj p).outlets[k]? = some out) :
    out.preset = .zero ∨ out.preset = .output 0 ∨ out.preset = .output 1 := by
  have key : ∀ p ≤ 8, ∀ l ∈ (voice.obj p).outlets, l.preset = .zero ∨ l.preset = .output 0 ∨ l.preset = .output 1 := by decide
  have hm := List.mem_of_getElem? h
  rcases voice_obj p with h | h
  · exact key p h out hm
  · rw [h] at hm; simp at hm

theorem voice_wf : TreePatch voice voiceKind 0 voiceRank 9 := by
  refine ⟨rfl, ?_, by decide, by decide, ?_, ?_, ?_, ?_, ?_, ?_, ?_, ?_, ?_, ?_, ?_, ?_, ?_, ?_, ?_, ?_, ?_⟩
  · intro g h
    rcases voice_child h with ⟨-, h⟩ | ⟨-, h⟩ <;> omega
  · intro a b h
    rcases voice_child h with ⟨rfl, rfl | rfl | rfl⟩ | ⟨rfl, rfl | rfl | rfl | rfl | rfl⟩ <;> decide
  · intro g h
    obtain ⟨s, hs⟩ := Option.isSome_iff_exists.mp h
    rcases voice_sub hs with ⟨rfl, rfl⟩ | ⟨rfl, rfl⟩ <;> decide
  · intro a b b' h h'
    rcases voice_child h with ⟨rfl, h⟩ | ⟨rfl, h⟩ <;> rcases voice_child h' with ⟨rfl, h'⟩ | ⟨rfl, h'⟩ <;> omega
  · intro g h
    obtain ⟨s, hs⟩ := Option.isSome_iff_exists.mp h
    rcases voice_sub hs with ⟨rfl, rfl⟩ | ⟨rfl, rfl⟩
    · exact Or.inl rfl
    · exact Or.inr ⟨0, _, rfl, by decide⟩
  · intro g s hs
    rcases voice_sub hs with ⟨rfl, rfl⟩ | ⟨rfl, rfl⟩ <;> decide
  · intro g s hs x m hx
    rcases voice_sub hs with ⟨rfl, rfl⟩ | ⟨rfl, rfl⟩ <;> simp at hx
    obtain ⟨rfl, rfl⟩ := hx
    exact ⟨by decide, rfl, rfl, _, rfl, rfl, by decide⟩
  · intro g s hs
    rcases voice_sub hs with ⟨rfl, rfl⟩ | ⟨rfl, rfl⟩ <;> decide
  · intro g s hs
    rcases voice_sub hs with ⟨rfl, rfl⟩ | ⟨rfl, rfl⟩ <;> decide
  · intro g s hs
    rcases voice_sub hs with ⟨rfl, rfl⟩ | ⟨rfl, rfl⟩ <;> decide
  · intro g s hs
    rcases voice_sub hs with ⟨rfl, rfl⟩ | ⟨rfl, rfl⟩ <;> decide
  · intro g s hs
    have hob : ∀ o, ((voice.masked s).obj o).inlets = (voice.obj o).inlets ∧ ((voice.masked s).obj o).outlets = (voice.obj o).outlets := fun _ => ⟨rfl, rfl⟩
    refine ⟨?_, fun o ho h => ?_, fun o ho l hl c hc hcs => ?_, fun p k out hk t i => ?_, fun p hp k out hk => ?_⟩
    · rcases voice_sub hs with ⟨rfl, rfl⟩ | ⟨rfl, rfl⟩ <;> decide
    · by_cases h3 : o = 3
      · subst h3
        refine Or.inr ⟨[⟨1, 0, true⟩, ⟨2, 0, true⟩], 0, ?_⟩
        rcases voice_sub hs with ⟨rfl, rfl⟩ | ⟨rfl, rfl⟩ <;> rfl
      · by_cases h8 : o = 8
        · subst h8
          refine Or.inr ⟨[⟨6, 0, true⟩], 1, ?_⟩
          rcases voice_sub hs with ⟨rfl, rfl⟩ | ⟨rfl, rfl⟩ <;> rfl
        · left
          rw [(hob o).1, (hob o).2]
          have key : ∀ o ≤ 8, o ≠ 3 → o ≠ 8 → (∀ l ∈ (voice.obj o).inlets, l.preset = .zero) ∧ ∀ l ∈ (voice.obj o).outlets, l.preset = .zero := by decide
          rcases voice_obj o with h' | h'
          · exact key o h' h3 h8
          · rw [h']; simp
    · rcases voice_sub hs with ⟨rfl, rfl⟩ | ⟨rfl, rfl⟩
      · have : c = ⟨1, 0, true⟩ ∨ c = ⟨2, 0, true⟩ := by
          have ho : o = 1 ∨ o = 2 ∨ o = 3 := by simpa [Tree.masked, mask, Tree.flat] using ho
          have hl : l ∈ (voice.obj o).inlets := hl
          rcases ho with rfl | rfl | rfl <;> simp [voice, dacObj] at hl
          · subst hl; simp at hc; exact Or.inl hc
          · rcases hl with rfl | rfl <;> simp at hc; exact hc
        rcases this with rfl | rfl
        · exact ⟨by decide, _, rfl, Or.inl (by decide)⟩
        · exact ⟨by decide, _, rfl, Or.inl (by decide)⟩
      · have : c = ⟨4, 0, true⟩ ∨ c = ⟨5, 0, true⟩ ∨ c = ⟨6, 0, true⟩ := by
          have ho : o = 4 ∨ o = 5 ∨ o = 6 ∨ o = 7 ∨ o = 8 := by simpa [Tree.masked, mask, Tree.flat] using ho
          have hl : l ∈ (voice.obj o).inlets := hl
          rcases ho with rfl | rfl | rfl | rfl | rfl <;> simp [voice, dacObj] at hl
          · subst hl; simp at hc; exact Or.inl hc
          · rcases hl with rfl | rfl <;> simp at hc <;> simp [hc]
          · subst hl; simp at hc; simp [hc]
          · rcases hl with rfl | rfl <;> simp at hc; simp [hc]
        rcases this with rfl | rfl | rfl
        · exact ⟨by decide, _, rfl, Or.inl (by decide)⟩
        · exact ⟨by decide, _, rfl, Or.inl (by decide)⟩
        · exact ⟨by decide, _, rfl, Or.inl (by decide)⟩
    · rcases voice_presets p k out hk with h | h | h <;> rw [h] <;> simp
    · have hk : (voice.obj p).outlets[k]? = some out := hk
      have hm := List.mem_of_getElem? hk
      have hlt : k < 1 := by
        have key : ∀ p ≤ 8, (voice.obj p).outlets.length ≤ 1 := by decide
        obtain ⟨h1, -⟩ := List.getElem?_eq_some_iff.mp hk
        rcases voice_obj p with h | h
        · have := key p h; omega
        · rw [h] at h1; simp at h1
      have : k = 0 := by omega
      subst this
      rcases voice_sub hs with ⟨rfl, rfl⟩ | ⟨rfl, rfl⟩ <;> simp [Tree.masked, mask, Tree.flat] at hp
      · rcases hp with rfl | rfl | rfl <;> simp [voice, dacObj] at hm <;> subst hm <;> decide
      · rcases hp with rfl | rfl | rfl | rfl | rfl <;> simp [voice, dacObj] at hm <;> subst hm <;> decide
  · intro g s hs o ho p hp
    obtain ⟨l, hl, c, hc, rfl⟩ := hp
    have hl : l ∈ (voice.obj o).inlets := hl
    have key : ∀ s ∈ [(⟨[1, 2, 3], [], []⟩ : Sub), ⟨[4, 5, 6, 7, 8], [(4, 3)], [7]⟩], ∀ o ∈ s.ids, ∀ l ∈ (voice.obj o).inlets, ∀ c ∈ l.conns, c.src ∈ s.ids := by decide
    rcases voice_sub hs with ⟨rfl, rfl⟩ | ⟨rfl, rfl⟩
    · exact key ⟨[1, 2, 3], [], []⟩ (by simp) o ho l hl c hc
    · exact key ⟨[4, 5, 6, 7, 8], [(4, 3)], [7]⟩ (by simp) o ho l hl c hc
  · intro g s hs o ho pk hpk hr
    have h1 := voice_reach hr
    have h2 := voice_feeds (s := s) (mem_reads_feeds (T := voice) (s := s) hpk)
    omega
  · intro g h
    obtain ⟨s, hs⟩ := Option.isSome_iff_exists.mp h
    rcases voice_sub hs with ⟨rfl, rfl⟩ | ⟨rfl, rfl⟩ <;> decide
  · intro g s hs p hp ha
    have hp56 : p = 5 ∨ p = 6 := by
      have key : ∀ p ≤ 8, voiceKind p ≠ .other → p = 5 ∨ p = 6 := by decide
      have hle : p ≤ 8 := by rcases voice_child ⟨s, hs, hp⟩ with h | h <;> omega
      refine key p hle fun e => ?_
      rw [e] at ha
      simp [Arith] at ha
    rcases voice_sub hs with ⟨rfl, rfl⟩ | ⟨rfl, rfl⟩
    · rcases hp56 with rfl | rfl <;> simp at hp
    · rcases hp56 with rfl | rfl
      · exact ⟨rfl, by decide, by decide, rfl, ⟨_, rfl, rfl⟩, rfl⟩
      · exact ⟨rfl, by decide, by decide, rfl, ⟨_, rfl, rfl⟩, rfl⟩
  · intro g s hs
    rcases voice_sub hs with ⟨rfl, rfl⟩ | ⟨rfl, rfl⟩ <;> decide
  · intro g s hs p hp l hl c hc _
    have key : ∀ o ≤ 8, ∀ l ∈ (voice.obj o).inlets, ∀ c ∈ l.conns, c.isSignal = true := by decide
    have hle : p ≤ 8 := by rcases voice_child ⟨s, hs, hp⟩ with h | h <;> omega
    exact key p hle l hl c hc

/-- the functions of the objects of `voice` and of the objects the passes add: a sum (9) and a fused product and sum (10) -/
def voiceF : Nat → List Int → List Int
  | 1, _ => [3]
  | 5, [x, y] => [x * y]
  | 6, [x, y] => [x + y]
  | 9, [x, y] => [x + y]
  | 10, [x, y, z] => [x * y + z]
  | 3, [x, y] => [x + y]
  | 8, [x, y] => [x + y]
  | o, _ => List.replicate (voice.obj o).outlets.length 0

/-- the signals of `voice` -/
def voiceEnv : Nat → Nat → Int
  | 1, 0 => 3
  | 4, 0 => 3
  | 5, 0 => 9
  | 6, 0 => 12
  | 2, 0 => 12
  | _, _ => 0

theorem voice_flow : SumTreeFlow voice voiceF (fun _ => 0) voiceEnv := by
  refine ⟨fun g s hs p hp k out ch h1 h2 => ?_, fun g s hs o ho h1 h2 h3 k v h => ?_, fun g s hs i x n h => ?_, fun g s hs i x h => ?_⟩
  · rcases voice_presets p k out h1 with h | h | h <;> rw [h] at h2 <;> simp at h2
  · rcases voice_sub hs with ⟨rfl, rfl⟩ | ⟨rfl, rfl⟩ <;> simp at ho
    · rcases ho with rfl | rfl | rfl <;>
        first
        | exact absurd h3 (by decide)
        | exact absurd h1 (by decide)
        | skip
      cases k with
      | zero => simp [voice, voiceF] at h; rw [← h]; rfl
      | succ k => simp [voice, voiceF] at h
    · rcases ho with rfl | rfl | rfl | rfl | rfl <;>
        first
        | exact absurd h3 (by decide)
        | exact absurd h2 (by decide)
        | skip
      · cases k with
        | zero => simp [voice, voiceF, inletSum, voiceEnv] at h; rw [← h]; rfl
        | succ k => simp [voice, voiceF] at h
      · cases k with
        | zero => simp [voice, voiceF, inletSum, voiceEnv] at h; rw [← h]; rfl
        | succ k => simp [voice, voiceF] at h
  · rcases voice_sub hs with ⟨rfl, rfl⟩ | ⟨rfl, rfl⟩ <;> cases i <;> simp at h
    obtain ⟨rfl, rfl⟩ := h
    decide
  · rcases voice_sub hs with ⟨rfl, rfl⟩ | ⟨rfl, rfl⟩ <;> cases i <;> simp at h
    subst h
    decide

/-- the passes at work: one sum is made explicit, one product and sum are fused -/
theorem voice_passes : (voice.passes voiceKind 9 0).2 = 11 ∧ ((voice.passes voiceKind 9 0).1.t.sub 0).map (·.ids) = some [1, 2, 3, 9] ∧
    ((voice.passes voiceKind 9 0).1.t.sub 2).map (·.ids) = some [4, 7, 8, 10] ∧
    ∀ o < 11, (voice.passes voiceKind 9 0).1.kind o = if o = 10 then .fma else if o = 9 then .add else voiceKind o := by
  decide +kernel

theorem voice_leads {s : Sub} {g : Nat} (hs : voice.sub g = some s) {o : Nat} (ho : o ∈ s.ids) (hg : (voice.sub o).isSome) : Leads (voice.flat s) o := by
  obtain ⟨s', hs'⟩ := Option.isSome_iff_exists.mp hg
  have : o = 2 ∧ g = 0 := by
    rcases voice_sub hs' with ⟨rfl, rfl⟩ | ⟨rfl, rfl⟩ <;> rcases voice_child ⟨s, hs, ho⟩ with h | h <;> omega
  obtain ⟨rfl, rfl⟩ := this
  rcases voice_sub hs with ⟨-, rfl⟩ | ⟨h, -⟩
  · exact ⟨3, by decide, by decide, .single ⟨_, List.mem_cons_self, ⟨2, 0, true⟩, by simp, rfl⟩⟩
  · omega

example : ∃ st ss, (voice.passes voiceKind 9 0).1.t.compile 0 = .ok (st, ss) ∧
    (exec voiceF (Store.start (fun _ => 0) fun _ _ => 77) ss).1 (.output 0) = 15 ∧
    (exec voiceF (Store.start (fun _ => 0) fun _ _ => 77) ss).1 (.output 1) = 12 := by
  obtain ⟨hn, -, -, hk⟩ := voice_passes
  have hdacs : ∀ o ≤ 8, (dacChan (voice.obj o)).isSome → o = 3 ∨ o = 8 := by decide
  have hle : ∀ o g, Child voice o g → 1 ≤ o ∧ o ≤ 8 := fun o g h => by rcases voice_child h with h | h <;> omega
  have hch : ∀ o, (∃ g, Child voice o g) ↔ 1 ≤ o ∧ o ≤ 8 := by
    intro o
    refine ⟨fun ⟨g, h⟩ => hle o g h, fun h => ?_⟩
    by_cases e : o ≤ 3
    · exact ⟨0, _, rfl, by simp; omega⟩
    · exact ⟨2, _, rfl, by simp; omega⟩
  obtain ⟨st, ss, h1, h2, -⟩ := tree_compiler_correct voice_wf (fun g s hs o ho => voice_leads hs ho)
    (fun o h => by
      rcases voice_obj o with h' | h'
      · rcases hdacs o h' h with rfl | rfl <;> rfl
      · rw [h'] at h; simp [dacChan] at h)
    voiceF (fun _ => 0) voiceEnv voice_flow
    (by
      rw [hn]
      refine ⟨fun o ho h => ?_, fun o ho h => ?_, fun o ho h => ?_, fun o ho h => ?_, fun o ho h => ?_⟩ <;> rw [hk o ho] at h <;>
        interval_cases o <;> first | exact absurd h (by decide) | exact fun _ _ => rfl | exact fun _ _ _ => rfl)
    (fun o g hc _ h x y => by
      rcases hdacs o (hle o g hc).2 h with rfl | rfl <;> rfl)
    (fun o g hc _ l hl => by
      have := hle o g hc
      obtain ⟨_, _⟩ := this
      interval_cases o
      · rfl
      · rfl
      · match l, hl with | [x, y], _ => rfl
      · rfl
      · match l, hl with | [x, y], _ => rfl
      · match l, hl with | [x, y], _ => rfl
      · rfl
      · match l, hl with | [x, y], _ => rfl)
    fun _ _ => 77
  refine ⟨st, ss, h1, (h2 0 [3] (by simp) fun o => ?_).trans (by decide), (h2 1 [8] (by simp) fun o => ?_).trans (by decide)⟩
  · rw [hch o]
    constructor
    · intro h
      rw [List.mem_singleton.mp h]
      decide
    · rintro ⟨⟨_, _⟩, -, -, h⟩
      interval_cases o <;> first | exact absurd h (by decide) | simp
  · rw [hch o]
    constructor
    · intro h
      rw [List.mem_singleton.mp h]
      decide
    · rintro ⟨⟨_, _⟩, -, -, h⟩
      interval_cases o <;> first | exact absurd h (by decide) | simp

end Verif.Signal
