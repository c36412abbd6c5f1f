import Verif.SignalTreeProofs
/-!
# C30, C31 for patches with subpatches

Specification: `TreeFlow` — `env o k` is the signal at outlet `k` of object `o`; a subpatch is transparent: an inlet object
delivers what is connected to the inlet, an outlet what is connected to the outlet object.
-/
namespace Verif.Signal
open Relation

variable {α : Type}

/-! ### a step uses what was made before -/

/-- every step uses outlets that are available -/
def Okl (ob : Nat → Obj) (av : Nat × Nat → Prop) : List Act → Prop
  | [] => True
  | a :: as => (∀ pk ∈ a.reads ob, av pk) ∧ Okl ob (fun pk => av pk ∨ a.makes ob pk) as

theorem Okl.mono {ob : Nat → Obj} {av av' : Nat × Nat → Prop} {A : List Act} (h : Okl ob av A) (hm : ∀ pk, av pk → av' pk) :
    Okl ob av' A := by
  induction A generalizing av av' with
  | nil => trivial
  | cons a A ih => exact ⟨fun pk hp => hm pk (h.1 pk hp), ih h.2 fun pk => Or.imp_left (hm pk)⟩

theorem Okl.append {ob : Nat → Obj} {av : Nat × Nat → Prop} {A B : List Act} (h1 : Okl ob av A)
    (h2 : Okl ob (fun pk => av pk ∨ ∃ b ∈ A, b.makes ob pk) B) : Okl ob av (A ++ B) := by
  induction A generalizing av with
  | nil => exact h2.mono fun pk h => by simpa using h
  | cons a A ih =>
    refine ⟨h1.1, ih h1.2 (h2.mono fun pk h => ?_)⟩
    rcases h with h | ⟨b, hb, hm⟩
    · exact Or.inl (Or.inl h)
    · rcases List.mem_cons.mp hb with rfl | hb
      · exact Or.inl (Or.inr hm)
      · exact Or.inr ⟨b, hb, hm⟩

theorem Okl.flatMap {ob : Nat → Obj} {av : Nat × Nat → Prop} {L : List Nat} {block : Nat → List Act}
    (h : ∀ pre o post, L = pre ++ o :: post → Okl ob (fun pk => av pk ∨ ∃ p ∈ pre, ∃ b ∈ block p, b.makes ob pk) (block o)) :
    Okl ob av (L.flatMap block) := by
  induction L generalizing av with
  | nil => trivial
  | cons o L ih =>
    rw [List.flatMap_cons]
    refine Okl.append ((h [] o L rfl).mono fun pk h => by simpa using h) (ih fun pre p post e => ?_)
    refine (h (o :: pre) p post (by rw [e]; rfl)).mono fun pk hp => ?_
    rcases hp with hp | ⟨q, hq, b, hb, hm⟩
    · exact Or.inl (Or.inl hp)
    · rcases List.mem_cons.mp hq with rfl | hq
      · exact Or.inl (Or.inr ⟨b, hb, hm⟩)
      · exact Or.inr ⟨q, hq, b, hb, hm⟩

theorem Okl.get {ob : Nat → Obj} {av : Nat × Nat → Prop} {A : List Act} (h : Okl ob av A) :
    ∀ pre a post, A = pre ++ a :: post → ∀ pk ∈ a.reads ob, av pk ∨ ∃ b ∈ pre, b.makes ob pk := by
  induction A generalizing av with
  | nil => intro pre a post e; simp at e
  | cons x A ih =>
    intro pre a post e pk hp
    cases pre with
    | nil =>
      simp at e
      obtain ⟨rfl, rfl⟩ := e
      exact Or.inl (h.1 pk hp)
    | cons y pre =>
      simp at e
      obtain ⟨rfl, rfl⟩ := e
      rcases ih h.2 pre a post rfl pk hp with (h1 | h1) | ⟨b, hb, h1⟩
      · exact Or.inl h1
      · exact Or.inr ⟨x, by simp, h1⟩
      · exact Or.inr ⟨b, by simp [hb], h1⟩

section
variable {T : Tree} {root : Nat} {rank : Nat → Nat}

/-- outlets that are used, but get no buffer: patch inputs, and lets of graphs that nothing is connected to -/
inductive Quiet (T : Tree) : Nat × Nat → Prop
  | adc (g : Nat) (s : Sub) (p k : Nat) (out : Outlet) (ch : Nat) (h : T.sub g = some s) (h1 : p ∈ s.ids) (h2 : T.sub p = none)
      (h3 : (T.obj p).signal = false) (h4 : p ∉ s.ins.map (·.1)) (h5 : (T.obj p).outlets[k]? = some out)
      (h6 : out.preset = .input ch) : Quiet T (p, k)
  | enter (g : Nat) (s : Sub) (i x n : Nat) (h : T.sub g = some s) (h1 : s.ins[i]? = some (x, n))
      (h2 : ∀ l, (T.obj g).inlets[i]? = some l → l.conns.filter (·.isSignal) = []) : Quiet T (x, 0)
  | leave (g : Nat) (s : Sub) (i x : Nat) (h : T.sub g = some s) (h1 : s.outs[i]? = some x) (h2 : T.outletConns x = []) :
      Quiet T (g, i)

/-- the signals that objects of a graph use are quiet, enter the graph, or are made by an object of the graph -/
theorem level_avail (wf : TreeWF T root rank) {g : Nat} {s : Sub} (hs : T.sub g = some s)
    (hone : ∀ l ∈ (T.obj g).inlets, (l.conns.filter (·.isSignal)).length ≤ 1) (f : Nat) (hr : rank g < f + 1)
    (pre : List Nat) (o : Nat) (ho : o ∈ s.ids) (pk : Nat × Nat) (hpk : pk ∈ readsOf (T.obj o).inlets)
    (hpre : T.sig pk.1 = true → pk.1 ∈ pre) :
    Quiet T pk ∨ (∃ b ∈ enterActs (T.obj g).inlets s.ins, b.makes T.obj pk) ∨
      ∃ p ∈ pre, ∃ b ∈ (if (T.sub p).isSome then T.acts f p else [.atom p]), b.makes T.obj pk := by
  obtain ⟨l, hl, hm⟩ := List.mem_flatMap.mp hpk
  obtain ⟨c, hc, rfl⟩ := List.mem_map.mp hm
  obtain ⟨hc, hcs⟩ := List.mem_filter.mp hc
  simp only at hpre
  have hin := wf.closed g s hs o ho l hl c hc
  rcases wf.source g s hs o ho l hl c hc hcs with ⟨h1, h2, out, h3, h4, h5⟩ | ⟨h1, h2, h3, out, ch, h4, h5⟩ | ⟨h1, h2⟩ |
    ⟨s', out, h1, h2, h3, h4⟩
  · right; right
    refine ⟨c.src, hpre (by rw [sig_atom h1]; exact h2), .atom c.src, by simp [h1], rfl, out, h3, h4, h5⟩
  · exact Or.inl (.adc g s c.src c.outlet out ch hs hin h1 h2 h3 h4 h5)
  · obtain ⟨xn, hx, hxe⟩ := List.mem_map.mp h1
    obtain ⟨x, n⟩ := xn
    simp only at hxe
    subst hxe
    obtain ⟨i, hi⟩ := List.mem_iff_getElem?.mp hx
    rw [h2]
    cases hl' : (T.obj g).inlets[i]? with
    | none => exact Or.inl (.enter g s i c.src n hs hi (by simp [hl']))
    | some l' =>
      have h1 := hone l' (List.mem_of_getElem? hl')
      cases hf : l'.conns.filter (·.isSignal) with
      | nil => exact Or.inl (.enter g s i c.src n hs hi (by rw [hl']; rintro _ ⟨⟩; exact hf))
      | cons c' cs =>
        cases cs with
        | cons c'' cs => rw [hf] at h1; simp at h1
        | nil => exact Or.inr (Or.inl ⟨_, enterActs_mem i c.src n l' c' hi hl' hf, rfl⟩)
  · obtain ⟨x, hx⟩ : ∃ x, s'.outs[c.outlet]? = some x := ⟨_, List.getElem?_eq_getElem h3⟩
    have h5 := outletConns_one wf h1 x (List.mem_of_getElem? hx)
    cases hf : T.outletConns x with
    | nil => exact Or.inl (.leave c.src s' c.outlet x h1 hx hf)
    | cons c' cs =>
      cases cs with
      | cons c'' cs => rw [hf] at h5; simp at h5
      | nil =>
        right; right
        refine ⟨c.src, hpre h2, .link (c'.src, c'.outlet) (c.src, c.outlet) (T.fanout c.src c.outlet), ?_, rfl⟩
        have hrk := wf.nest _ _ ⟨s, hs, hin⟩
        have hf0 : f ≠ 0 := by omega
        obtain ⟨f', rfl⟩ := Nat.exists_eq_succ_of_ne_zero hf0
        have := leaveActs_mem (T := T) (g := c.src) (i0 := 0) c.outlet x c' hx hf
        rw [Nat.zero_add] at this
        simp only [h1, Option.isSome_some, if_true, Tree.acts]
        exact List.mem_append_right _ (List.mem_append_right _ this)

theorem mem_reads_feeds {s : Sub} {o : Nat} {pk : Nat × Nat} (h : pk ∈ readsOf (T.obj o).inlets) : Feeds (T.level s) pk.1 o := by
  obtain ⟨l, hl, hm⟩ := List.mem_flatMap.mp h
  obtain ⟨c, hc, rfl⟩ := List.mem_map.mp hm
  exact ⟨l, hl, c, (List.mem_filter.mp hc).1, rfl⟩

theorem acts_avail (wf : TreeWF T root rank) (f : Nat) : ∀ g, rank g < f →
    (∀ l ∈ (T.obj g).inlets, (l.conns.filter (·.isSignal)).length ≤ 1) → ∀ av : Nat × Nat → Prop,
    (∀ pk, Quiet T pk → av pk) → (∀ pk ∈ readsOf (T.obj g).inlets, av pk) → Okl T.obj av (T.acts f g) := by
  induction f with
  | zero => intro g h; omega
  | succ f ih =>
    intro g hr hone av hq hin
    rw [Tree.acts]
    cases hs : T.sub g with
    | none => trivial
    | some s =>
      simp only
      obtain ⟨o1, o2, o3⟩ := signal_order_correct _ (level_closed wf hs)
      refine Okl.append ?_ (Okl.append (Okl.flatMap fun pre o post e => ?_) ?_)
      · -- signals that enter
        have : ∀ A : List Act, (∀ pk ∈ A.flatMap (Act.reads T.obj), av pk) → Okl T.obj av A := by
          intro A
          induction A with
          | nil => intro _; trivial
          | cons a A ih' =>
            intro h
            exact ⟨fun pk hp => h pk (by simp [hp]), (ih' fun pk hp => h pk (by rw [List.flatMap_cons]; simp [hp])).mono
              fun pk => Or.inl⟩
        refine this _ fun pk hp => hin pk ?_
        rwa [enterActs_reads (wf.lets g s hs).1 hone] at hp
      · -- objects
        have ho : o ∈ (T.level s).signalOrder := by rw [e]; simp
        obtain ⟨h1, h2⟩ := mem_order wf hs ho
        have hav : ∀ pk ∈ readsOf (T.obj o).inlets, (av pk ∨ ∃ b ∈ enterActs (T.obj g).inlets s.ins, b.makes T.obj pk) ∨
            ∃ p ∈ pre, ∃ b ∈ (if (T.sub p).isSome then T.acts f p else [.atom p]), b.makes T.obj pk := by
          intro pk hpk
          rcases level_avail wf hs hone f hr pre o h1 pk hpk fun hsig => by
            have := o3 o ho pk.1 (mem_reads_feeds hpk) hsig (wf.acyclic g s hs o h1 pk hpk)
            rw [e] at this o1
            exact before_prefix o1 this
            with h | h | h
          · exact Or.inl (Or.inl (hq pk h))
          · exact Or.inl (Or.inr h)
          · exact Or.inr h
        split
        · have := wf.nest o g ⟨s, hs, h1⟩
          exact ih o (by omega) (wf.one g s hs o h1) _ (fun pk h => Or.inl (Or.inl (hq pk h))) hav
        · exact ⟨hav, trivial⟩
      · -- signals that leave
        have : ∀ (A : List Act) (av : Nat × Nat → Prop), (∀ pk ∈ A.flatMap (Act.reads T.obj), av pk) → Okl T.obj av A := by
          intro A av
          induction A with
          | nil => intro _; trivial
          | cons a A ih' =>
            intro h
            exact ⟨fun pk hp => h pk (by simp [hp]), (ih' fun pk hp => h pk (by rw [List.flatMap_cons]; simp [hp])).mono
              fun pk => Or.inl⟩
        refine this _ _ fun pk hp => ?_
        rw [leaveActs_reads (outletConns_one wf hs) fun x hx => (wf.outs g s hs x hx).2.2.2.2] at hp
        obtain ⟨x, hx, hp⟩ := List.mem_flatMap.mp hp
        obtain ⟨h1, h2, h3, h4, h5⟩ := wf.outs g s hs x hx
        have leaf : Leaf (T.level s) x := by
          intro out hout
          simp only [Tree.level, h4] at hout
          simp at hout
        rcases level_avail wf hs hone f hr (T.level s).signalOrder x h1 pk hp fun hsig =>
          (o2 pk.1).mpr ⟨hsig, x, h1, leaf, .single (mem_reads_feeds hp)⟩ with h | h | ⟨p, hp, b, hb, hm⟩
        · exact Or.inl (Or.inl (hq pk h))
        · exact Or.inl (Or.inr h)
        · exact Or.inr ⟨b, List.mem_flatMap.mpr ⟨p, hp, hb⟩, hm⟩

/-- an inlet object belongs to one inlet -/
theorem ins_unique (wf : TreeWF T root rank) {g g' : Nat} {s s' : Sub} (hs : T.sub g = some s) (hs' : T.sub g' = some s')
    {i i' x n n' : Nat} (h : s.ins[i]? = some (x, n)) (h' : s'.ins[i']? = some (x, n')) : g = g' ∧ i = i' := by
  have := wf.parent x g g' (ins_child wf hs h) (ins_child wf hs' h')
  subst this
  rw [hs] at hs'
  cases hs'
  refine ⟨rfl, ?_⟩
  have hn := wf.insNodup g s hs
  have h1 : (s.ins.map (·.1))[i]? = some x := by simp [h]
  have h2 : (s.ins.map (·.1))[i']? = some x := by simp [h']
  exact (List.getElem?_inj (by
    rw [List.length_map]
    by_contra hlt
    rw [List.getElem?_eq_none (by omega)] at h
    simp at h) hn).mp (h1.trans h2.symm)

theorem quiet_unmade (wf : TreeWF T root rank) {pk : Nat × Nat} (hq : Quiet T pk) {a : Act} (ha : ActIs T a) :
    ¬ a.makes T.obj pk := by
  intro hm
  cases hq with
  | adc g s p k out ch h h1 h2 h3 h4 h5 h6 =>
    cases ha with
    | atom g' s' o h' h1' h2' h3' =>
      obtain ⟨rfl, -⟩ := hm
      simp only at h3'
      rw [h3] at h3'
      simp at h3'
    | enter g' s' i x n l c h' h1' h2' h3' =>
      obtain ⟨rfl, rfl⟩ := Prod.mk.inj (show (p, k) = (x, 0) from hm)
      have := wf.parent p g g' ⟨s, h, h1⟩ (ins_child wf h' h1')
      subst this
      rw [h] at h'
      cases h'
      exact h4 (List.mem_map.mpr ⟨(p, n), List.mem_of_getElem? h1', rfl⟩)
    | leave g' s' i x c h' h1' h2' =>
      obtain ⟨rfl, rfl⟩ := Prod.mk.inj (show (p, k) = (g', i) from hm)
      rw [h2] at h'
      simp at h'
  | enter g s i x n h h1 h2 =>
    obtain ⟨-, n1, n2, -⟩ := wf.ins g s h x n (List.mem_of_getElem? h1)
    cases ha with
    | atom g' s' o h' h1' h2' h3' =>
      obtain ⟨rfl, -⟩ := hm
      simp only at h3'
      rw [n2] at h3'
      simp at h3'
    | enter g' s' i' x' n' l c h' h1' h2' h3' =>
      obtain ⟨rfl, -⟩ := Prod.mk.inj (show (x, 0) = (x', 0) from hm)
      obtain ⟨rfl, rfl⟩ := ins_unique wf h h' h1 h1'
      rw [h2 l h2'] at h3'
      simp at h3'
    | leave g' s' i' x' c h' h1' h2' =>
      obtain ⟨rfl, -⟩ := Prod.mk.inj (show (x, 0) = (g', i') from hm)
      rw [n1] at h'
      simp at h'
  | leave g s i x h h1 h2 =>
    cases ha with
    | atom g' s' o h' h1' h2' h3' =>
      obtain ⟨rfl, -⟩ := hm
      simp only at h2'
      rw [h] at h2'
      simp at h2'
    | enter g' s' i' x' n' l c h' h1' h2' h3' =>
      obtain ⟨rfl, -⟩ := Prod.mk.inj (show (g, i) = (x', 0) from hm)
      have := (wf.ins g' s' h' g n' (List.mem_of_getElem? h1')).2.1
      rw [h] at this
      simp at this
    | leave g' s' i' x' c h' h1' h2' =>
      obtain ⟨rfl, rfl⟩ := Prod.mk.inj (show (g, i) = (g', i') from hm)
      rw [h] at h'
      cases h'
      rw [h1] at h1'
      cases h1'
      rw [h2] at h2'
      simp at h2'

theorem init_zero {p k : Nat} (h : ∀ l ∈ (T.obj p).outlets, l.preset = .zero) : (Graph.init ⟨[], T.obj⟩).out p k = .zero := by
  simp only [Graph.init]
  cases hk : (T.obj p).outlets[k]? with
  | none => rfl
  | some out => simpa using h out (List.mem_of_getElem? hk)

theorem outletConns_val [Zero α] {env : Nat → Nat → α} {x : Nat} {c : Conn} (h : T.outletConns x = [c]) :
    headVal env (T.obj x).inlets = env c.src c.outlet := by
  unfold Tree.outletConns at h
  unfold headVal
  split at h
  · simp at h
  · rename_i l ls hl
    simp only [hl, inletVal, h]

theorem outletConns_val0 [Zero α] {env : Nat → Nat → α} {x : Nat} (h : T.outletConns x = []) :
    headVal env (T.obj x).inlets = 0 := by
  unfold Tree.outletConns at h
  unfold headVal
  split at h
  · rename_i hl
    simp only [hl]
  · rename_i l ls hl
    simp only [hl, inletVal, h]

theorem quiet_const [Zero α] (wf : TreeWF T root rank) {F : Nat → List α → List α} {inp : Nat → α} {env : Nat → Nat → α}
    (flow : TreeFlow T F inp env) {pk : Nat × Nat} (hq : Quiet T pk) :
    (Graph.init ⟨[], T.obj⟩).out pk.1 pk.2 = .zero ∧ env pk.1 pk.2 = 0 ∨
      ∃ ch, (Graph.init ⟨[], T.obj⟩).out pk.1 pk.2 = .input ch ∧ env pk.1 pk.2 = inp ch := by
  cases hq with
  | adc g s p k out ch h h1 h2 h3 h4 h5 h6 =>
    right
    refine ⟨ch, by simp [Graph.init, h5, h6], flow.ext g s h p h1 k out ch h5 h6⟩
  | enter g s i x n h h1 h2 =>
    left
    obtain ⟨-, -, -, n3, -⟩ := wf.ins g s h x n (List.mem_of_getElem? h1)
    refine ⟨init_zero n3, (flow.enters g s h i x n h1).trans ?_⟩
    cases hi : (T.obj g).inlets[i]? with
    | none =>
      rw [List.drop_eq_nil_of_le (by simpa using hi)]
      rfl
    | some l =>
      obtain ⟨hlt, he⟩ := List.getElem?_eq_some_iff.mp hi
      rw [List.drop_eq_getElem_cons hlt, he]
      simp [headVal, inletVal, h2 l hi]
  | leave g s i x h h1 h2 =>
    left
    exact ⟨init_zero (wf.lets g s h).2, (flow.leaves g s h i x h1).trans (outletConns_val0 h2)⟩

/-! ### the theorem -/

/-- the order of the objects of a patch: subpatches are inserted -/
def Tree.order (T : Tree) : Nat → Nat → List Nat
  | 0, _ => []
  | f + 1, g =>
    match T.sub g with
    | none => []
    | some s => (T.level s).signalOrder.flatMap fun o => if (T.sub o).isSome then T.order f o else [o]

theorem atoms_links {as : List Act} (h : ∀ a ∈ as, ∃ s d n, a = .link s d n) : atoms as = [] := by
  induction as with
  | nil => rfl
  | cons a as ih =>
    obtain ⟨s, d, n, rfl⟩ := h a (by simp)
    exact ih fun a ha => h a (by simp [ha])

theorem atoms_flatMap (os : List Nat) (block : Nat → List Act) : atoms (os.flatMap block) = os.flatMap fun o => atoms (block o) := by
  induction os with
  | nil => rfl
  | cons o os ih => simp [atoms_append, ih]

theorem atoms_acts (f : Nat) : ∀ g, atoms (T.acts f g) = T.order f g := by
  induction f with
  | zero => intro g; rfl
  | succ f ih =>
    intro g
    rw [Tree.acts, Tree.order]
    cases hs : T.sub g with
    | none => rfl
    | some s =>
      simp only
      rw [atoms_append, atoms_append, atoms_links fun a ha => by
        obtain ⟨i, x, n, l, c, -, -, -, h⟩ := mem_enterActs ha
        exact ⟨_, _, _, h⟩, List.nil_append, atoms_links (as := leaveActs _ _ _ _) fun a ha => by
        obtain ⟨i, x, c, -, -, h⟩ := mem_leaveActs ha
        exact ⟨_, _, _, h⟩, List.append_nil, atoms_flatMap]
      refine flatMap_congr' fun o _ => ?_
      split
      · exact ih o
      · rfl

theorem acts_ok [AddCommMonoid α] (wf : TreeWF T root rank) {F : Nat → List α → List α} {inp : Nat → α} {env : Nat → Nat → α}
    (flow : TreeFlow T F inp env)
    (hdac : ∀ o g, Child T o g → T.sub o = none → (dacChan (T.obj o)).isSome → ∀ x y, F o [x, y] = [x + y])
    (hlen : ∀ o g, Child T o g → T.sub o = none → ∀ l, l.length = (T.obj o).inlets.length →
      (F o l).length = (T.obj o).outlets.length) :
    ActsOk T F inp env (T.acts (T.depth + 1) root) := by
  have hd := wf.depth
  have hone : ∀ l ∈ (T.obj root).inlets, (l.conns.filter (·.isSignal)).length ≤ 1 := fun l hl => by rw [wf.rootIn l hl]; simp
  have hat : ∀ o ∈ atoms (T.acts (T.depth + 1) root), ∃ g s, T.sub g = some s ∧ o ∈ s.ids ∧ T.sub o = none ∧
      (T.obj o).signal = true := by
    intro o ho
    cases acts_is wf _ root _ (mem_atoms.mp ho) with
    | atom g s _ h h1 h2 h3 => exact ⟨g, s, h, h1, h2, h3⟩
  refine ⟨acts_disj wf _ root, ?_, ?_, ?_, ?_, ?_, ?_, ?_, fun o ho => ?_, fun o ho => ?_⟩
  · intro pre a post e pk hpk
    have hok := acts_avail wf (T.depth + 1) root (by omega) hone (Quiet T) (fun _ h => h) fun pk hp => by
      obtain ⟨l, hl, hm⟩ := List.mem_flatMap.mp hp
      rw [wf.rootIn l hl] at hm
      simp at hm
    rcases hok.get pre a post e pk hpk with h | h
    · exact Or.inr ⟨fun b hb => quiet_unmade wf h (acts_is wf _ root b hb), quiet_const wf flow h⟩
    · exact Or.inl h
  · intro o ho
    obtain ⟨g, s, h, h1, h2, h3⟩ := hat o ho
    exact wf.kinds g s h o h1 h2 h3
  · intro o ho
    obtain ⟨g, s, h, h1, h2, h3⟩ := hat o ho
    exact wf.one g s h o h1
  · intro o ho k out hk
    obtain ⟨g, s, h, h1, h2, h3⟩ := hat o ho
    refine Nat.le_trans (reads_count wf h (o, k) h1) (wf.count g s h o h1 k out hk fun hi => ?_)
    obtain ⟨⟨x, n⟩, hx, rfl⟩ := List.mem_map.mp hi
    have := (wf.ins g s h x n hx).2.2.1
    rw [h3] at this
    simp at this
  · intro sp d n ha
    have hmk := acts_is wf _ root _ ha
    generalize hact : Act.link sp d n = a at hmk
    cases hmk with
    | atom => simp at hact
    | enter g s i x n' l c h h1 h2 h3 =>
      simp only [Act.link.injEq] at hact
      obtain ⟨rfl, rfl, rfl⟩ := hact
      obtain ⟨m1, -, -, m2, m3⟩ := wf.ins g s h x n (List.mem_of_getElem? h1)
      refine ⟨Nat.le_trans (reads_count wf h (x, 0) m1) m3, fun t i => ?_⟩
      rw [init_zero m2]
      simp
    | leave g s i x c h h1 h2 =>
      simp only [Act.link.injEq] at hact
      obtain ⟨rfl, rfl, rfl⟩ := hact
      refine ⟨?_, fun t i => by rw [init_zero (wf.lets g s h).2]; simp⟩
      by_cases hu : Child T g root ∨ ∃ g', Child T g g'
      · obtain ⟨g', s', hs', hg⟩ : ∃ g' s', T.sub g' = some s' ∧ g ∈ s'.ids := by
          rcases hu with ⟨s', h1, h2⟩ | ⟨g', s', h1, h2⟩
          · exact ⟨_, s', h1, h2⟩
          · exact ⟨g', s', h1, h2⟩
        refine Nat.le_trans (reads_count wf hs' (g, i) hg) ?_
        unfold Tree.fanout
        cases hk : (T.obj g).outlets[i]? with
        | some out =>
          refine wf.count g' s' hs' g hg i out hk fun hi => ?_
          obtain ⟨⟨y, m⟩, hy, rfl⟩ := List.mem_map.mp hi
          have := (wf.ins g' s' hs' y m hy).2.1
          rw [h] at this
          simp at this
        | none =>
          refine Nat.le_of_eq (List.count_eq_zero.mpr fun hm => ?_)
          obtain ⟨o, ho, hm⟩ := List.mem_flatMap.mp hm
          obtain ⟨l, hl, hm⟩ := List.mem_flatMap.mp hm
          obtain ⟨c', hc', hm⟩ := List.mem_map.mp hm
          obtain ⟨hc', hcs⟩ := List.mem_filter.mp hc'
          obtain ⟨rfl, rfl⟩ := Prod.mk.inj hm
          rcases wf.source g' s' hs' o ho l hl c' hc' hcs with ⟨h1, -⟩ | ⟨h1, -⟩ | ⟨h1, -⟩ | ⟨s', out, -, -, -, h4⟩
          · rw [h] at h1; simp at h1
          · rw [h] at h1; simp at h1
          · obtain ⟨⟨y, m⟩, hy, he⟩ := List.mem_map.mp h1
            simp only at he
            subst he
            have := (wf.ins g' s' hs' _ m hy).2.1
            rw [h] at this
            simp at this
          · rw [hk] at h4; simp at h4
      · have hz : ((T.acts (T.depth + 1) root).flatMap (Act.reads T.obj)).count (g, i) = 0 := by
          rw [acts_reads wf (T.depth + 1) root (by omega) hone]
          refine List.count_eq_zero.mpr fun hm => ?_
          obtain ⟨r, hr, hx⟩ := List.mem_flatMap.mp hm
          obtain ⟨g', s', h1, h2, h3⟩ := reads_child wf (readers_under wf _ _ r hr) hx
          exact hu (Or.inr ⟨g', s', h1, h3⟩)
        rw [hz]
        exact Nat.zero_le _
  · intro o ho
    obtain ⟨g, s, h, h1, h2, h3⟩ := hat o ho
    exact flow.obj g s h o h1 h2 h3
  · intro sp d n ha
    have hmk := acts_is wf _ root _ ha
    generalize hact : Act.link sp d n = a at hmk
    cases hmk with
    | atom => simp at hact
    | enter g s i x n' l c h h1 h2 h3 =>
      simp only [Act.link.injEq] at hact
      obtain ⟨rfl, rfl, rfl⟩ := hact
      rw [flow.enters g s h i x n h1]
      obtain ⟨hlt, he⟩ := List.getElem?_eq_some_iff.mp h2
      rw [List.drop_eq_getElem_cons hlt, he]
      simp [headVal, inletVal, h3]
    | leave g s i x c h h1 h2 =>
      simp only [Act.link.injEq] at hact
      obtain ⟨rfl, rfl, rfl⟩ := hact
      rw [flow.leaves g s h i x h1, outletConns_val h2]
  · obtain ⟨g, s, h, h1, h2, h3⟩ := hat o ho
    exact hdac o g ⟨s, h, h1⟩ h2
  · obtain ⟨g, s, h, h1, h2, h3⟩ := hat o ho
    exact hlen o g ⟨s, h, h1⟩ h2

/-- **C31** for patches with subpatches: for every nesting of graphs, whatever the temporary buffers contain at the start of
the block, every object runs once and is given exactly the signals connected to its inlets, through any number of inlets
and outlets of subpatches, and every output channel ends with the sum of the signals connected to its `[dac~]`s.  All buffer
indices are below the declared number, and no two outlets of an object share a buffer. -/
theorem tree_compile_correct [AddCommMonoid α] (wf : TreeWF T root rank) (F : Nat → List α → List α) (inp : Nat → α)
    (env : Nat → Nat → α) (flow : TreeFlow T F inp env)
    (hdac : ∀ o g, Child T o g → T.sub o = none → (dacChan (T.obj o)).isSome → ∀ x y, F o [x, y] = [x + y])
    (hlen : ∀ o g, Child T o g → T.sub o = none → ∀ l, l.length = (T.obj o).inlets.length →
      (F o l).length = (T.obj o).outlets.length) (junk : Ty → Nat → α) :
    ∃ st ss, T.compile root = .ok (st, ss) ∧ ss.map (·.id) = T.order (T.depth + 1) root ∧
      (∀ x ∈ (exec F (Store.start inp junk) ss).2, dacChan (T.obj x.1) = none →
        x.2 = (T.obj x.1).inlets.map (inletVal env)) ∧
      (∀ c, (exec F (Store.start inp junk) ss).1 (.output c)
        = outputSum ⟨[], T.obj⟩ env (T.order (T.depth + 1) root) c) ∧
      (∀ x ∈ ss, ∀ t i, Buf.tmp t i ∈ x.ins ∨ Buf.tmp t i ∈ x.outs → i < numBuffers (st.pool t)) ∧
      (∀ x ∈ ss, ∀ (k k' : Nat) (t : Ty) (i : Nat), x.outs[k]? = some (Buf.tmp t i) → x.outs[k']? = some (Buf.tmp t i) →
        k = k') := by
  have hd := wf.depth
  have hin : ∀ p k t i, (Graph.init ⟨[], T.obj⟩).out p k ≠ .tmp t i := by
    intro p k t i
    simp only [Graph.init]
    cases hk : (T.obj p).outlets[k]? with
    | none => simp
    | some out => simpa using wf.presets p k out hk t i
  have ok := acts_ok wf flow hdac hlen
  have sim : SimC T inp env (Graph.init ⟨[], T.obj⟩) (Store.start inp junk) []
      ((T.acts (T.depth + 1) root).flatMap (Act.reads T.obj)) (fun _ => 0) := by
    refine ⟨⟨fun t => ⟨by simp [Graph.init], by simp [Graph.init]⟩, fun p k t i h => absurd h (hin p k t i), fun t i h => ?_⟩,
      by simp, rfl, fun _ => rfl, fun _ => rfl, fun _ _ => rfl⟩
    obtain ⟨pk, -, h⟩ := cnt_pos.mp h
    exact absurd h (hin _ _ _ _)
  obtain ⟨st, ss, e1, e2, e3, e4, e5, e6, -⟩ := runActs_ok T F inp env (T.acts (T.depth + 1) root) ok (T.acts (T.depth + 1) root) [] rfl _ _ _ sim
  refine ⟨st, ss, ?_, ?_, e3, fun c => ?_, e5, e6⟩
  · rw [← e1]
    exact assignGraph_acts wf (T.depth + 1) root (by omega) wf.isGraph (fun l hl => by rw [wf.rootIn l hl]; simp) _
  · rw [e2, atoms_acts]
  · rw [e4, zero_add, atoms_acts]

/-! ### which objects run -/

theorem atoms_nodup {as : List Act} (h : as.Pairwise fun a b => ∀ pk, a.touches pk → ¬ b.touches pk) : (atoms as).Nodup := by
  induction as with
  | nil => simp [atoms]
  | cons a as ih =>
    obtain ⟨h1, h2⟩ := List.pairwise_cons.mp h
    cases a with
    | link s d n => exact ih h2
    | atom o =>
      refine List.nodup_cons.mpr ⟨fun hm => ?_, ih h2⟩
      exact h1 _ (mem_atoms.mp hm) (o, 0) rfl rfl

theorem processes_down (wf : TreeWF T root rank) (f : Nat) : ∀ o, rank o ≤ f → T.processes (f + 1) o = T.processes f o := by
  induction f with
  | zero =>
    intro o ho
    cases hs : T.sub o with
    | none => simp [Tree.processes, hs]
    | some s => have := wf.pos o (by simp [hs]); omega
  | succ f ih =>
    intro o ho
    rw [Tree.processes, Tree.processes]
    cases hs : T.sub o with
    | none => rfl
    | some s =>
      simp only
      congr 1
      have : ∀ x ∈ s.ids, T.processes (f + 1) x = T.processes f x := fun x hx => by
        have := wf.nest x o ⟨s, hs, hx⟩
        exact ih x (by omega)
      rw [Bool.eq_iff_iff]
      simp only [List.any_eq_true]
      exact ⟨fun ⟨x, hx, h⟩ => ⟨x, hx, by rw [← this x hx]; exact h⟩, fun ⟨x, hx, h⟩ => ⟨x, hx, by rw [this x hx]; exact h⟩⟩

/-- a graph processes a signal iff one of its objects does, or is a patch input -/
theorem sig_graph (wf : TreeWF T root rank) {g : Nat} {s : Sub} (hu : Under T g root) (hs : T.sub g = some s) :
    T.sig g = true ↔ ∃ x ∈ s.ids, T.sig x = true ∨ isAdc (T.obj x) = true := by
  have h1 := under_rank wf hu
  have h2 := wf.depth
  have h3 := wf.pos g (by simp [hs])
  unfold Tree.sig
  obtain ⟨d, hd⟩ : ∃ d, T.depth = d + 1 := ⟨T.depth - 1, by omega⟩
  have h4 : ∀ x ∈ s.ids, T.processes (d + 1) x = T.processes d x := fun x hx => by
    have := wf.nest x g ⟨s, hs, hx⟩
    exact processes_down wf d x (by omega)
  rw [hd]
  have hg : T.processes (d + 1) g = (s.ids.any (T.processes d) || s.ids.any fun x => isAdc (T.obj x)) := by
    rw [Tree.processes, hs]
  rw [hg, Bool.or_eq_true, List.any_eq_true, List.any_eq_true]
  constructor
  · rintro (⟨x, hx, h⟩ | ⟨x, hx, h⟩)
    · exact ⟨x, hx, Or.inl (by rw [h4 x hx]; exact h)⟩
    · exact ⟨x, hx, Or.inr h⟩
  · rintro ⟨x, hx, h | h⟩
    · exact Or.inl ⟨x, hx, by rw [← h4 x hx]; exact h⟩
    · exact Or.inr ⟨x, hx, h⟩

/-- `does_process_signal` of graphs: there is a signal object or a patch input somewhere inside -/
theorem sig_iff (wf : TreeWF T root rank) (hnog : ∀ g, (T.sub g).isSome → isAdc (T.obj g) = false) (n : Nat) :
    ∀ g, rank g < n → Under T g root → (T.sub g).isSome →
      (T.sig g = true ↔ ∃ x, Under T x g ∧ T.sub x = none ∧ ((T.obj x).signal = true ∨ isAdc (T.obj x) = true)) := by
  induction n with
  | zero => intro g h; omega
  | succ n ih =>
    intro g hr hu hg
    obtain ⟨s, hs⟩ := Option.isSome_iff_exists.mp hg
    rw [sig_graph wf hu hs]
    constructor
    · rintro ⟨x, hx, h⟩
      have hc : Child T x g := ⟨s, hs, hx⟩
      cases hsx : T.sub x with
      | none =>
        rw [sig_atom hsx] at h
        exact ⟨x, .single hc, hsx, h⟩
      | some s' =>
        have hxs : (T.sub x).isSome := by simp [hsx]
        rw [hnog x hxs] at h
        have := wf.nest x g hc
        obtain ⟨y, h1, h2⟩ := (ih x (by omega) (.head hc hu) hxs).mp (by simpa using h)
        exact ⟨y, h1.tail hc, h2⟩
    · rintro ⟨y, h1, h2, h3⟩
      rcases ReflTransGen.cases_tail h1 with rfl | ⟨x, h4, s', h5, h6⟩
      · rw [hs] at h2; simp at h2
      · rw [hs] at h5
        cases h5
        refine ⟨x, h6, ?_⟩
        have hc : Child T x g := ⟨s, hs, h6⟩
        cases hsx : T.sub x with
        | none =>
          rcases ReflTransGen.cases_tail h4 with rfl | ⟨z, -, s'', h7, -⟩
          · rw [sig_atom hsx]; exact h3
          · rw [hsx] at h7; simp at h7
        | some s' =>
          have := wf.nest x g hc
          exact Or.inl ((ih x (by omega) (.head hc hu) (by simp [hsx])).mpr ⟨y, h4, h2, h3⟩)

theorem order_all (wf : TreeWF T root rank) (hac : ∀ g s, T.sub g = some s → Acyclic (T.level s) ∧ Consistent (T.level s))
    (o : Nat) (ho : T.sub o = none) (hsig : (T.obj o).signal = true) (f : Nat) :
    ∀ g, rank g < f → Under T g root → Under T o g → o ≠ g → o ∈ T.order f g ∧ T.sig g = true := by
  induction f with
  | zero => intro g h; omega
  | succ f ih =>
    intro g hr hu hog hne
    rcases ReflTransGen.cases_tail hog with rfl | ⟨c, h4, hcg⟩
    · exact absurd rfl hne
    · obtain ⟨s, hs, hx⟩ := id hcg
      have hrk := wf.nest c g hcg
      have key : T.sig c = true ∧ o ∈ (if (T.sub c).isSome then T.order f c else [c]) := by
        by_cases hoc : o = c
        · subst hoc
          exact ⟨by rw [sig_atom ho]; exact hsig, by simp [ho]⟩
        · obtain ⟨h1, h2⟩ := ih c (by omega) (.head hcg hu) h4 hoc
          have hcs : (T.sub c).isSome := by
            rcases ReflTransGen.cases_tail h4 with h | ⟨z, -, s'', h7, -⟩
            · exact absurd h.symm hoc
            · simp [h7]
          exact ⟨h2, by rw [if_pos hcs]; exact h1⟩
      refine ⟨?_, (sig_graph wf hu hs).mpr ⟨c, hx, Or.inl key.1⟩⟩
      rw [Tree.order, hs]
      simp only
      refine List.mem_flatMap.mpr ⟨c, ?_, key.2⟩
      exact (signal_order_acyclic _ (level_closed wf hs) (hac g s hs).1 (hac g s hs).2).2.1 c hx key.1

/-- **C30** for patches with subpatches: the process list names every signal object of every subpatch exactly once, and nothing
else, if no graph has a cycle of connections -/
theorem tree_order_correct (wf : TreeWF T root rank) :
    (T.order (T.depth + 1) root).Nodup ∧
    (∀ o ∈ T.order (T.depth + 1) root, T.sub o = none ∧ (T.obj o).signal = true ∧ ∃ g, Child T o g) ∧
    ((∀ g s, T.sub g = some s → Acyclic (T.level s) ∧ Consistent (T.level s)) →
      ∀ o, Under T o root → T.sub o = none → (T.obj o).signal = true → o ∈ T.order (T.depth + 1) root) := by
  refine ⟨by rw [← atoms_acts]; exact atoms_nodup (acts_disj wf _ root), fun o ho => ?_, fun hac o hu hs hsig => ?_⟩
  · rw [← atoms_acts] at ho
    cases acts_is wf _ root _ (mem_atoms.mp ho) with
    | atom g s _ h h1 h2 h3 => exact ⟨h2, h3, g, s, h, h1⟩
  · have hd := wf.depth
    refine (order_all wf hac o hs hsig (T.depth + 1) root (by omega) .refl hu ?_).1
    rintro rfl
    have := wf.isGraph
    rw [hs] at this
    simp at this

end

/-! ### the hypotheses can be met -/

/-- `[osc~] → [pd outer] → [dac~]`, where `outer` is `[inlet~] → [pd inner] → [outlet~]` and `inner` multiplies its inlet by
itself (0: patch, 1: osc~, 2: outer, 3: dac~; 4, 5, 6: inlet~, inner, outlet~; 7, 8, 9: inlet~, *~, outlet~) -/
def nested : Tree where
  obj
    | 1 => ⟨[], [⟨some .f, 1, .zero⟩], true⟩
    | 2 => ⟨[⟨[⟨1, 0, true⟩], .zero⟩], [⟨some .f, 1, .zero⟩], false⟩
    | 3 => dacObj [⟨2, 0, true⟩] 0
    | 4 => ⟨[], [⟨some .f, 1, .zero⟩], false⟩
    | 5 => ⟨[⟨[⟨4, 0, true⟩], .zero⟩], [⟨some .f, 1, .zero⟩], false⟩
    | 6 => ⟨[⟨[⟨5, 0, true⟩], .zero⟩], [], false⟩
    | 7 => ⟨[], [⟨some .f, 2, .zero⟩], false⟩
    | 8 => ⟨[⟨[⟨7, 0, true⟩], .zero⟩, ⟨[⟨7, 0, true⟩], .zero⟩], [⟨some .f, 1, .zero⟩], true⟩
    | 9 => ⟨[⟨[⟨8, 0, true⟩], .zero⟩], [], false⟩
    | _ => ⟨[], [], false⟩
  sub
    | 0 => some ⟨[3, 2, 1], [], []⟩
    | 2 => some ⟨[6, 5, 4], [(4, 1)], [6]⟩
    | 5 => some ⟨[9, 8, 7], [(7, 2)], [9]⟩
    | _ => none
  depth := 3

/-- nesting of `nested` -/
def nestedRank : Nat → Nat
  | 0 => 3
  | 2 => 2
  | 5 => 1
  | _ => 0

theorem nested_sub {g : Nat} {s : Sub} (h : nested.sub g = some s) :
    (g = 0 ∧ s = ⟨[3, 2, 1], [], []⟩) ∨ (g = 2 ∧ s = ⟨[6, 5, 4], [(4, 1)], [6]⟩) ∨ (g = 5 ∧ s = ⟨[9, 8, 7], [(7, 2)], [9]⟩) := by
  match g, h with
  | 0, h => exact Or.inl ⟨rfl, (Option.some.inj h).symm⟩
  | 2, h => exact Or.inr (Or.inl ⟨rfl, (Option.some.inj h).symm⟩)
  | 5, h => exact Or.inr (Or.inr ⟨rfl, (Option.some.inj h).symm⟩)
  | 1, h => simp [nested] at h
  | 3, h => simp [nested] at h
  | 4, h => simp [nested] at h
  | n + 6, h => simp [nested] at h

theorem nested_child {a b : Nat} (h : Child nested a b) :
    (b = 0 ∧ (a = 3 ∨ a = 2 ∨ a = 1)) ∨ (b = 2 ∧ (a = 6 ∨ a = 5 ∨ a = 4)) ∨ (b = 5 ∧ (a = 9 ∨ a = 8 ∨ a = 7)) := by
  obtain ⟨s, hs, ha⟩ := h
  rcases nested_sub hs with ⟨rfl, rfl⟩ | ⟨rfl, rfl⟩ | ⟨rfl, rfl⟩ <;> simpa using ha

theorem nested_obj (o : Nat) : o ≤ 9 ∨ nested.obj o = ⟨[], [], false⟩ := by
  match o with
  | 0 | 1 | 2 | 3 | 4 | 5 | 6 | 7 | 8 | 9 => left; omega
  | n + 10 => right; rfl

/-- signals flow from lower to higher numbers -/
theorem nested_feeds {s : Sub} {p o : Nat} (h : Feeds (nested.level s) p o) : p < o := by
  obtain ⟨l, hl, c, hc, rfl⟩ := h
  have hl : l ∈ (nested.obj o).inlets := hl
  have key : ∀ o ≤ 9, ∀ l ∈ (nested.obj o).inlets, ∀ c ∈ l.conns, c.src < o := by decide
  rcases nested_obj o with h | h
  · exact key o h l hl c hc
  · rw [h] at hl; simp at hl

theorem nested_reach {s : Sub} {p o : Nat} (h : Reach (nested.level s) p o) : p ≤ o := by
  induction h with
  | refl => exact Nat.le_refl _
  | tail _ h ih => have := nested_feeds h; omega

theorem nested_wf : TreeWF nested 0 nestedRank := by
  refine ⟨rfl, ?_, by decide, by decide, ?_, ?_, ?_, ?_, ?_, ?_, ?_, ?_, ?_, ?_, ?_, ?_, ?_, ?_, ?_⟩
  · intro g h
    rcases nested_child h with ⟨-, h⟩ | ⟨-, h⟩ | ⟨-, h⟩ <;> omega
  · intro a b h
    rcases nested_child h with ⟨rfl, h'⟩ | ⟨rfl, h'⟩ | ⟨rfl, h'⟩ <;> rcases h' with rfl | rfl | rfl <;> decide
  · intro g h
    obtain ⟨s, hs⟩ := Option.isSome_iff_exists.mp h
    rcases nested_sub hs with ⟨rfl, rfl⟩ | ⟨rfl, rfl⟩ | ⟨rfl, rfl⟩ <;> decide
  · intro a b b' h h'
    rcases nested_child h with ⟨rfl, h⟩ | ⟨rfl, h⟩ | ⟨rfl, h⟩ <;>
      rcases nested_child h' with ⟨rfl, h'⟩ | ⟨rfl, h'⟩ | ⟨rfl, h'⟩ <;> omega
  · intro g s hs x n hx
    rcases nested_sub hs with ⟨rfl, rfl⟩ | ⟨rfl, rfl⟩ | ⟨rfl, rfl⟩ <;> simp at hx <;> obtain ⟨rfl, rfl⟩ := hx <;> decide
  · intro g s hs
    rcases nested_sub hs with ⟨rfl, rfl⟩ | ⟨rfl, rfl⟩ | ⟨rfl, rfl⟩ <;> decide
  · intro g s hs
    rcases nested_sub hs with ⟨rfl, rfl⟩ | ⟨rfl, rfl⟩ | ⟨rfl, rfl⟩ <;> decide
  · intro g s hs
    rcases nested_sub hs with ⟨rfl, rfl⟩ | ⟨rfl, rfl⟩ | ⟨rfl, rfl⟩ <;> decide
  · intro g s hs
    rcases nested_sub hs with ⟨rfl, rfl⟩ | ⟨rfl, rfl⟩ | ⟨rfl, rfl⟩ <;> decide
  · intro g s hs o ho h1 h2
    by_cases h3 : o = 3
    · subst h3; exact Or.inr ⟨[⟨2, 0, true⟩], 0, rfl⟩
    · left
      rcases nested_sub hs with ⟨rfl, rfl⟩ | ⟨rfl, rfl⟩ | ⟨rfl, rfl⟩ <;> simp at ho <;> rcases ho with rfl | rfl | rfl <;>
        first | exact absurd rfl h3 | decide
  · intro g s hs
    rcases nested_sub hs with ⟨rfl, rfl⟩ | ⟨rfl, rfl⟩ | ⟨rfl, rfl⟩ <;> decide
  · intro g s hs
    rcases nested_sub hs with ⟨rfl, rfl⟩ | ⟨rfl, rfl⟩ | ⟨rfl, rfl⟩ <;> decide
  · intro g s hs o ho l hl c hc hcs
    rcases nested_sub hs with ⟨rfl, rfl⟩ | ⟨rfl, rfl⟩ | ⟨rfl, rfl⟩ <;> simp at ho <;> rcases ho with rfl | rfl | rfl <;>
      simp [nested, dacObj] at hl
    · rcases hl with rfl | rfl <;> simp at hc
      subst hc
      exact Or.inr (Or.inr (Or.inr ⟨_, _, rfl, by decide, by decide, rfl⟩))
    · subst hl; simp at hc; subst hc
      exact Or.inl ⟨rfl, rfl, _, rfl, by decide⟩
    · subst hl; simp at hc; subst hc
      exact Or.inr (Or.inr (Or.inr ⟨_, _, rfl, by decide, by decide, rfl⟩))
    · subst hl; simp at hc; subst hc
      exact Or.inr (Or.inr (Or.inl (by decide)))
    · subst hl; simp at hc; subst hc
      exact Or.inl ⟨rfl, rfl, _, rfl, by decide⟩
    · subst hl; simp at hc; subst hc
      exact Or.inr (Or.inr (Or.inl (by decide)))
  · intro p k out h t i
    have key : ∀ p ≤ 9, ∀ l ∈ (nested.obj p).outlets, l.preset = .zero ∨ l.preset = .output 0 := by decide
    have hm := List.mem_of_getElem? h
    rcases nested_obj p with h | h
    · rcases key p h out hm with h | h <;> rw [h] <;> simp
    · rw [h] at hm; simp at hm
  · intro g s hs p hp k out hk
    have hm := List.mem_of_getElem? hk
    have hlt : k < 1 := by
      have key : ∀ p ≤ 9, (nested.obj p).outlets.length ≤ 1 := by decide
      obtain ⟨h1, -⟩ := List.getElem?_eq_some_iff.mp hk
      rcases nested_obj p with h | h
      · have := key p h; omega
      · rw [h] at h1; simp at h1
    have : k = 0 := by omega
    subst this
    rcases nested_sub hs with ⟨rfl, rfl⟩ | ⟨rfl, rfl⟩ | ⟨rfl, rfl⟩ <;> simp at hp <;> rcases hp with rfl | rfl | rfl <;>
      simp [nested, dacObj] at hm <;> subst hm <;> decide
  · intro g s hs o ho pk hpk hr
    have h1 := nested_reach hr
    have h2 := nested_feeds (mem_reads_feeds (T := nested) (s := s) hpk)
    omega

/-- the functions of the objects of `nested`: a constant, a product, a sum -/
def nestedF : Nat → List Int → List Int
  | 1, _ => [3]
  | 8, [x, y] => [x * y]
  | 3, [x, y] => [x + y]
  | o, _ => List.replicate (nested.obj o).outlets.length 0

/-- the signals of `nested` -/
def nestedEnv : Nat → Nat → Int
  | 1, 0 => 3
  | 4, 0 => 3
  | 7, 0 => 3
  | 8, 0 => 9
  | 5, 0 => 9
  | 2, 0 => 9
  | _, _ => 0

theorem nested_flow : TreeFlow nested nestedF (fun _ => 0) nestedEnv := by
  refine ⟨fun g s hs p hp k out ch h1 h2 => ?_, fun g s hs o ho h1 h2 h3 k v h => ?_, fun g s hs i x n h => ?_,
    fun g s hs i x h => ?_⟩
  · have key : ∀ p ≤ 9, ∀ l ∈ (nested.obj p).outlets, l.preset = .zero ∨ l.preset = .output 0 := by decide
    have hm := List.mem_of_getElem? h1
    rcases nested_obj p with h | h
    · rcases key p h out hm with h | h <;> rw [h] at h2 <;> simp at h2
    · rw [h] at hm; simp at hm
  · rcases nested_sub hs with ⟨rfl, rfl⟩ | ⟨rfl, rfl⟩ | ⟨rfl, rfl⟩ <;> simp at ho <;> rcases ho with rfl | rfl | rfl <;>
      first
      | exact absurd h3 (by decide)
      | exact absurd h1 (by decide)
      | exact absurd h2 (by decide)
      | skip
    · cases k with
      | zero => simp [nested, nestedF] at h; rw [← h]; rfl
      | succ k => simp [nested, nestedF] at h
    · cases k with
      | zero => simp [nested, nestedF, inletVal, nestedEnv] at h; rw [← h]; rfl
      | succ k => simp [nested, nestedF] at h
  · rcases nested_sub hs with ⟨rfl, rfl⟩ | ⟨rfl, rfl⟩ | ⟨rfl, rfl⟩ <;> cases i <;> simp at h
    · obtain ⟨rfl, rfl⟩ := h; decide
    · obtain ⟨rfl, rfl⟩ := h; decide
  · rcases nested_sub hs with ⟨rfl, rfl⟩ | ⟨rfl, rfl⟩ | ⟨rfl, rfl⟩ <;> cases i <;> simp at h
    · subst h; decide
    · subst h; decide

example : ∃ st ss, nested.compile 0 = .ok (st, ss) ∧ ss.map (·.id) = [1, 8, 3] ∧
    (exec nestedF (Store.start (fun _ => 0) fun _ _ => 77) ss).1 (.output 0) = 9 := by
  obtain ⟨st, ss, h1, h2, -, h4, -⟩ := tree_compile_correct nested_wf nestedF (fun _ => 0) nestedEnv nested_flow
    (fun o _ _ _ h x y => by
      have key : ∀ o ≤ 9, (dacChan (nested.obj o)).isSome → o = 3 := by decide
      rcases nested_obj o with h' | h'
      · rw [key o h' h]; rfl
      · rw [h'] at h; simp [dacChan] at h)
    (fun o _ _ _ l hl => by
      rcases nested_obj o with h' | h'
      · match o, hl, h' with
        | 1, hl, _ => rfl
        | 8, hl, _ => match l, hl with | [x, y], _ => rfl
        | 3, hl, _ => match l, hl with | [x, y], _ => rfl
        | 0, hl, _ => rfl
        | 2, hl, _ => rfl
        | 4, hl, _ => rfl
        | 5, hl, _ => rfl
        | 6, hl, _ => rfl
        | 7, hl, _ => rfl
        | 9, hl, _ => rfl
      · match o, h' with
        | 0, _ => rfl
        | 1, h' => simp [nested] at h'
        | 2, _ => rfl
        | 4, _ => rfl
        | 5, _ => rfl
        | 6, _ => rfl
        | 7, _ => rfl
        | 8, h' => simp [nested] at h'
        | 9, _ => rfl
        | 3, h' => simp [nested, dacObj] at h'
        | n + 10, _ => simp [nestedF])
    fun _ _ => 77
  exact ⟨st, ss, h1, h2.trans (by decide), (h4 0).trans (by decide)⟩

/-! ### F54: a subpatch without signal objects -/

/-- `[osc~] → [pd wire] → [dac~]`, where `wire` is `[inlet~] → [outlet~]` (0: patch, 1: osc~, 2: wire, 3: dac~, 4: inlet~, 5:
outlet~) -/
def wire : Tree where
  obj
    | 1 => ⟨[], [⟨some .f, 1, .zero⟩], true⟩
    | 2 => ⟨[⟨[⟨1, 0, true⟩], .zero⟩], [⟨some .f, 1, .zero⟩], false⟩
    | 3 => dacObj [⟨2, 0, true⟩] 0
    | 4 => ⟨[], [⟨some .f, 1, .zero⟩], false⟩
    | 5 => ⟨[⟨[⟨4, 0, true⟩], .zero⟩], [], false⟩
    | _ => ⟨[], [], false⟩
  sub
    | 0 => some ⟨[3, 2, 1], [], []⟩
    | 2 => some ⟨[5, 4], [(4, 1)], [5]⟩
    | _ => none
  depth := 2

/-- the subpatch is skipped, and the output reads the zero buffer: the oscillator is not heard -/
theorem wire_is_silent : ∃ st, wire.compile 0 = .ok (st, [⟨1, [], [.tmp .f 0]⟩, ⟨3, [.zero, .output 0], [.output 0]⟩]) :=
  ⟨_, rfl⟩

end Verif.Signal
