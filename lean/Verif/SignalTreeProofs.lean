import Verif.SignalActs
/-!
Proofs for `Verif.SignalTree`: the compiler over nested graphs performs the steps `Tree.acts`.
-/
namespace Verif.Signal
open Relation

variable {α : Type}

/-! ### specification -/

/-- `a` is an object of graph `b` -/
def Child (T : Tree) (a b : Nat) : Prop := ∃ s, T.sub b = some s ∧ a ∈ s.ids

/-- the signal connections of the objects of a graph -/
def Tree.readsIn (T : Tree) (s : Sub) : List (Nat × Nat) := s.ids.flatMap fun o => readsOf (T.obj o).inlets

/-- well-formed patches: what the earlier passes deliver.  `rank` bounds the nesting below an object. -/
structure TreeWF (T : Tree) (root : Nat) (rank : Nat → Nat) : Prop where
  isGraph : (T.sub root).isSome
  top : ∀ g, ¬ Child T root g
  rootIn : ∀ l ∈ (T.obj root).inlets, l.conns = []
  depth : rank root ≤ T.depth
  nest : ∀ a b, Child T a b → rank a < rank b
  pos : ∀ g, (T.sub g).isSome → 0 < rank g
  /-- an object is in one graph -/
  parent : ∀ a b b', Child T a b → Child T a b' → b = b'
  /-- inlet objects: no inlets, no signal processing, no preset buffer; they know how many readers they have -/
  ins : ∀ g s, T.sub g = some s → ∀ x n, (x, n) ∈ s.ins → x ∈ s.ids ∧ T.sub x = none ∧ (T.obj x).signal = false ∧
    (∀ l ∈ (T.obj x).outlets, l.preset = .zero) ∧ (T.readsIn s).count (x, 0) ≤ n
  insNodup : ∀ g s, T.sub g = some s → (s.ins.map (·.1)).Nodup
  /-- outlet objects: one inlet, no outlets, no signal processing -/
  outs : ∀ g s, T.sub g = some s → ∀ x ∈ s.outs, x ∈ s.ids ∧ T.sub x = none ∧ (T.obj x).signal = false ∧
    (T.obj x).outlets = [] ∧ (T.obj x).inlets.length ≤ 1
  outsNodup : ∀ g s, T.sub g = some s → s.outs.Nodup
  /-- a graph has an inlet object for each of its inlets; its outlets have no preset buffer -/
  lets : ∀ g s, T.sub g = some s → (T.obj g).inlets.length ≤ s.ins.length ∧ ∀ l ∈ (T.obj g).outlets, l.preset = .zero
  /-- a signal object is an ordinary one (its buffers are not preset) or an output object -/
  kinds : ∀ g s, T.sub g = some s → ∀ o ∈ s.ids, T.sub o = none → (T.obj o).signal →
    ((∀ l ∈ (T.obj o).inlets, l.preset = .zero) ∧ (∀ l ∈ (T.obj o).outlets, l.preset = .zero)) ∨
    ∃ conns c, T.obj o = dacObj conns c
  /-- at most one signal connection per inlet -/
  one : ∀ g s, T.sub g = some s → ∀ o ∈ s.ids, ∀ l ∈ (T.obj o).inlets, (l.conns.filter (·.isSignal)).length ≤ 1
  /-- connections stay in the graph -/
  closed : ∀ g s, T.sub g = some s → ∀ o ∈ s.ids, ∀ l ∈ (T.obj o).inlets, ∀ c ∈ l.conns, c.src ∈ s.ids
  /-- signals come from signal outlets of signal objects, from the patch inputs, from inlet objects, or from subgraphs that
  process a signal -/
  source : ∀ g s, T.sub g = some s → ∀ o ∈ s.ids, ∀ l ∈ (T.obj o).inlets, ∀ c ∈ l.conns, c.isSignal →
    (T.sub c.src = none ∧ (T.obj c.src).signal = true ∧
      ∃ out, (T.obj c.src).outlets[c.outlet]? = some out ∧ out.ty ≠ none ∧ out.preset = .zero) ∨
    (T.sub c.src = none ∧ (T.obj c.src).signal = false ∧ c.src ∉ s.ins.map (·.1) ∧
      ∃ out ch, (T.obj c.src).outlets[c.outlet]? = some out ∧ out.preset = .input ch) ∨
    (c.src ∈ s.ins.map (·.1) ∧ c.outlet = 0) ∨
    (∃ s' out, T.sub c.src = some s' ∧ T.sig c.src = true ∧ c.outlet < s'.outs.length ∧
      (T.obj c.src).outlets[c.outlet]? = some out)
  /-- no buffer of a pool is preset -/
  presets : ∀ (p k : Nat) (out : Outlet), (T.obj p).outlets[k]? = some out → ∀ t i, out.preset ≠ .tmp t i
  /-- an outlet knows the number of its connections -/
  count : ∀ g s, T.sub g = some s → ∀ p ∈ s.ids, ∀ (k : Nat) (out : Outlet), (T.obj p).outlets[k]? = some out →
    p ∉ s.ins.map (·.1) → (T.readsIn s).count (p, k) ≤ out.conns
  /-- no signal connection closes a cycle of connections -/
  acyclic : ∀ g s, T.sub g = some s → ∀ o ∈ s.ids, ∀ pk ∈ readsOf (T.obj o).inlets, ¬ Reach (T.level s) o pk.1

/-- the signal at the first inlet -/
def headVal [Zero α] (env : Nat → Nat → α) (ls : List Inlet) : α :=
  match ls with
  | l :: _ => inletVal env l
  | [] => 0

/-- the signals of a patch -/
structure TreeFlow [Zero α] (T : Tree) (F : Nat → List α → List α) (inp : Nat → α) (env : Nat → Nat → α) : Prop where
  /-- patch inputs -/
  ext : ∀ g s, T.sub g = some s → ∀ p ∈ s.ids, ∀ k out ch, (T.obj p).outlets[k]? = some out → out.preset = .input ch →
    env p k = inp ch
  /-- objects -/
  obj : ∀ g s, T.sub g = some s → ∀ o ∈ s.ids, T.sub o = none → (T.obj o).signal → dacChan (T.obj o) = none → ∀ k v,
    (F o ((T.obj o).inlets.map (inletVal env)))[k]? = some v → env o k = v
  /-- what an inlet object delivers is the signal at that inlet of its graph -/
  enters : ∀ g s, T.sub g = some s → ∀ i x n, s.ins[i]? = some (x, n) → env x 0 = headVal env ((T.obj g).inlets.drop i)
  /-- what an outlet of a graph delivers is the signal at that outlet object -/
  leaves : ∀ g s, T.sub g = some s → ∀ (i x : Nat), s.outs[i]? = some x → env g i = headVal env (T.obj x).inlets

/-! ### the steps of a graph -/

/-- the signal that enters at an inlet -/
def enterAct (cs : List Conn) (ins : List (Nat × Nat)) : List Act :=
  match cs, ins with
  | [c], (o, n) :: _ => [.link (c.src, c.outlet) (o, 0) n]
  | _, _ => []

/-- the signals that enter -/
def enterActs : List Inlet → List (Nat × Nat) → List Act
  | [], _ => []
  | l :: ls, ins => enterAct (l.conns.filter (·.isSignal)) ins ++ enterActs ls ins.tail

/-- the signal that leaves at an outlet -/
def leaveAct (T : Tree) (g i : Nat) (cs : List Conn) : List Act :=
  match cs with
  | [c] => [.link (c.src, c.outlet) (g, i) (T.fanout g i)]
  | _ => []

/-- the signals that leave -/
def leaveActs (T : Tree) (g : Nat) : Nat → List Nat → List Act
  | _, [] => []
  | i, oo :: os => leaveAct T g i (T.outletConns oo) ++ leaveActs T g (i + 1) os

/-- the steps of a graph -/
def Tree.acts (T : Tree) : Nat → Nat → List Act
  | 0, _ => []
  | f + 1, g =>
    match T.sub g with
    | none => []
    | some s => enterActs (T.obj g).inlets s.ins ++
        ((T.level s).signalOrder.flatMap (fun o => if (T.sub o).isSome then T.acts f o else [.atom o]) ++ leaveActs T g 0 s.outs)

theorem enter_acts (T : Tree) (st : St) (ls : List Inlet) (ins : List (Nat × Nat)) (hl : ls.length ≤ ins.length)
    (one : ∀ l ∈ ls, (l.conns.filter (·.isSignal)).length ≤ 1) :
    runActs T st (enterActs ls ins) = (enter st ls ins).map fun st => (st, []) := by
  induction ls generalizing st ins with
  | nil => simp [enterActs, enter, runActs, Except.map]
  | cons l ls ih =>
    have one' : ∀ l ∈ ls, (l.conns.filter (·.isSignal)).length ≤ 1 := fun l h => one l (by simp [h])
    cases ins with
    | nil => simp at hl
    | cons xn ins =>
      obtain ⟨x, n⟩ := xn
      simp only [List.length_cons, Nat.add_le_add_iff_right] at hl
      cases hf : l.conns.filter (·.isSignal) with
      | nil => simp only [enterActs, enterAct, enter, hf, List.tail_cons, List.nil_append]; exact ih st ins hl one'
      | cons c cs =>
        cases cs with
        | cons c' cs => have := one l (by simp); rw [hf] at this; simp at this
        | nil =>
          simp only [enterActs, enterAct, enter, hf, List.tail_cons, List.cons_append, List.nil_append, runActs, runAct]
          cases hs : share st (c.src, c.outlet) (x, 0) n with
          | error e => simp [Except.map]
          | ok st' =>
            simp only [ih st' ins hl one']
            cases enter st' ls ins <;> simp [Except.map]

theorem leave_acts (T : Tree) (g : Nat) (st : St) (i : Nat) (os : List Nat)
    (one : ∀ x ∈ os, (T.outletConns x).length ≤ 1) :
    runActs T st (leaveActs T g i os) = (leave T g st i os).map fun st => (st, []) := by
  induction os generalizing st i with
  | nil => simp [leaveActs, leave, runActs, Except.map]
  | cons x os ih =>
    have one' : ∀ x ∈ os, (T.outletConns x).length ≤ 1 := fun l h => one l (by simp [h])
    cases hf : T.outletConns x with
    | nil => simp only [leaveActs, leaveAct, leave, hf, List.nil_append]; exact ih st _ one'
    | cons c cs =>
      cases cs with
      | cons c' cs => have := one x (by simp); rw [hf] at this; simp at this
      | nil =>
        simp only [leaveActs, leaveAct, leave, hf, List.cons_append, List.nil_append, runActs, runAct]
        cases hs : share st (c.src, c.outlet) (g, i) (T.fanout g i) with
        | error e => simp [Except.map]
        | ok st' =>
          simp only [ih st' _ one']
          cases leave T g st' (i + 1) os <;> simp [Except.map]

theorem assignList_acts (T : Tree) (rec : St → Nat → Except Err (St × List Step)) (block : Nat → List Act) (os : List Nat) (st : St)
    (h : ∀ o ∈ os, ∀ st, rec st o = runActs T st (block o)) : assignList rec st os = runActs T st (os.flatMap block) := by
  induction os generalizing st with
  | nil => rfl
  | cons o os ih =>
    simp only [assignList, List.flatMap_cons, runActs_append, h o (by simp) st]
    cases hr : runActs T st (block o) with
    | error e => rfl
    | ok r =>
      simp only [ih r.1 fun o ho => h o (by simp [ho])]
      cases runActs T r.1 (os.flatMap block) <;> rfl

theorem runActs_atom (T : Tree) (st : St) (o : Nat) : runActs T st [.atom o] = T.assignAtom st o := by
  simp only [runActs, runAct]
  cases T.assignAtom st o <;> simp

theorem level_closed {T : Tree} {root : Nat} {rank : Nat → Nat} (wf : TreeWF T root rank) {g : Nat} {s : Sub}
    (h : T.sub g = some s) : Closed (T.level s) := by
  rintro o ho p ⟨l, hl, c, hc, rfl⟩
  exact wf.closed g s h o ho l hl c hc

theorem sig_atom {T : Tree} {o : Nat} (h : T.sub o = none) : T.sig o = (T.obj o).signal := by
  unfold Tree.sig
  cases T.depth with
  | zero => rfl
  | succ f => simp [Tree.processes, h]

/-- an object of the order of a graph -/
theorem mem_order {T : Tree} {root : Nat} {rank : Nat → Nat} (wf : TreeWF T root rank) {g : Nat} {s : Sub}
    (h : T.sub g = some s) {o : Nat} (ho : o ∈ (T.level s).signalOrder) : o ∈ s.ids ∧ T.sig o = true := by
  obtain ⟨m', hv⟩ := order_visited _ (level_closed wf h)
  exact ⟨hv.ids o (List.mem_filter.mp ho).1, (List.mem_filter.mp ho).2⟩

theorem outletConns_one {T : Tree} {root : Nat} {rank : Nat → Nat} (wf : TreeWF T root rank) {g : Nat} {s : Sub}
    (h : T.sub g = some s) : ∀ x ∈ s.outs, (T.outletConns x).length ≤ 1 := by
  intro x hx
  obtain ⟨h1, -⟩ := wf.outs g s h x hx
  unfold Tree.outletConns
  split
  · simp
  · rename_i l ls hl
    exact wf.one g s h x h1 l (by simp [hl])

theorem assignGraph_acts {T : Tree} {root : Nat} {rank : Nat → Nat} (wf : TreeWF T root rank) (f : Nat) :
    ∀ g, rank g < f → (T.sub g).isSome → (∀ l ∈ (T.obj g).inlets, (l.conns.filter (·.isSignal)).length ≤ 1) →
      ∀ st, T.assignGraph f st g = runActs T st (T.acts f g) := by
  induction f with
  | zero => intro g h; omega
  | succ f ih =>
    intro g hr hs hone st
    obtain ⟨s, hs⟩ := Option.isSome_iff_exists.mp hs
    simp only [Tree.assignGraph, Tree.acts, hs]
    rw [runActs_append, enter_acts T st _ _ (wf.lets g s hs).1 hone]
    cases he : enter st (T.obj g).inlets s.ins with
    | error e => simp [Except.map]
    | ok st1 =>
      simp only [Except.map]
      rw [runActs_append, assignList_acts T _ (fun o => if (T.sub o).isSome then T.acts f o else [.atom o])]
      · cases hb : runActs T st1 ((T.level s).signalOrder.flatMap
            fun o => if (T.sub o).isSome then T.acts f o else [.atom o]) with
        | error e => simp
        | ok r =>
          obtain ⟨st2, ss⟩ := r
          simp only [leave_acts T g st2 0 s.outs (outletConns_one wf hs)]
          cases leave T g st2 0 s.outs <;> simp [Except.map]
      · intro o ho st
        obtain ⟨h1, -⟩ := mem_order wf hs ho
        by_cases hso : (T.sub o).isSome
        · simp only [hso, if_true]
          have := wf.nest o g ⟨s, hs, h1⟩
          exact ih o (by omega) hso (wf.one g s hs o h1) st
        · simp only [hso]
          exact (runActs_atom T st o).symm

/-! ### graphs contain graphs -/

/-- `x` is in graph `g`, at any depth, or `g` itself -/
abbrev Under (T : Tree) : Nat → Nat → Prop := ReflTransGen (Child T)

section
variable {T : Tree} {root : Nat} {rank : Nat → Nat}

theorem under_rank (wf : TreeWF T root rank) {x g : Nat} (h : Under T x g) : rank x ≤ rank g := by
  induction h with
  | refl => exact Nat.le_refl _
  | tail _ h ih => have := wf.nest _ _ h; omega

theorem under_sib (wf : TreeWF T root rank) {x o o' g : Nat} (h : Under T x o) (h' : Under T x o') (ho : Child T o g)
    (ho' : Child T o' g) : o = o' := by
  have key : ∀ {o o'}, Child T o g → Child T o' g → Under T o o' → o = o' := by
    intro o o' ho ho' hu
    rcases ReflTransGen.cases_head hu with h | ⟨b, hb, hu'⟩
    · exact h
    · rw [wf.parent o b g hb ho] at hu'
      have h1 := under_rank wf hu'
      have h2 := wf.nest _ _ ho'
      omega
  rcases ReflTransGen.total_of_right_unique (fun a b c => wf.parent a b c) h h' with hu | hu
  · exact key ho ho' hu
  · exact (key ho' ho hu).symm

theorem under_child (wf : TreeWF T root rank) {x o g : Nat} (h : Under T x o) (ho : Child T o g) : x ≠ g := by
  rintro rfl
  have h1 := under_rank wf h
  have h2 := wf.nest _ _ ho
  omega

/-! ### the members of the list -/

theorem mem_enterActs {ls : List Inlet} {ins : List (Nat × Nat)} {a : Act} (h : a ∈ enterActs ls ins) :
    ∃ (i x n : Nat) (l : Inlet) (c : Conn), ins[i]? = some (x, n) ∧ ls[i]? = some l ∧ l.conns.filter (·.isSignal) = [c] ∧
      a = .link (c.src, c.outlet) (x, 0) n := by
  induction ls generalizing ins with
  | nil => simp [enterActs] at h
  | cons l ls ih =>
    rw [enterActs, List.mem_append] at h
    rcases h with h | h
    · unfold enterAct at h
      split at h
      · rename_i c o n ins hf
        simp at h
        exact ⟨0, o, n, l, c, by simp, by simp, hf, h⟩
      · simp at h
    · obtain ⟨i, x, n, l', c, h1, h2, h3, h4⟩ := ih h
      exact ⟨i + 1, x, n, l', c, by simpa using h1, by simpa using h2, h3, h4⟩

theorem enterActs_mem {ls : List Inlet} {ins : List (Nat × Nat)} (i x n : Nat) (l : Inlet) (c : Conn)
    (h1 : ins[i]? = some (x, n)) (h2 : ls[i]? = some l) (h3 : l.conns.filter (·.isSignal) = [c]) :
    Act.link (c.src, c.outlet) (x, 0) n ∈ enterActs ls ins := by
  induction ls generalizing ins i with
  | nil => simp at h2
  | cons l' ls ih =>
    rw [enterActs, List.mem_append]
    cases i with
    | zero =>
      cases ins with
      | nil => simp at h1
      | cons y ins => simp at h1 h2; subst h1 h2; left; simp [enterAct, h3]
    | succ i =>
      right
      exact ih i (by simpa using h1) (by simpa using h2)

theorem mem_leaveActs {g i0 : Nat} {os : List Nat} {a : Act} (h : a ∈ leaveActs T g i0 os) :
    ∃ (i x : Nat) (c : Conn), os[i]? = some x ∧ T.outletConns x = [c] ∧
      a = .link (c.src, c.outlet) (g, i0 + i) (T.fanout g (i0 + i)) := by
  induction os generalizing i0 with
  | nil => simp [leaveActs] at h
  | cons x os ih =>
    rw [leaveActs, List.mem_append] at h
    rcases h with h | h
    · unfold leaveAct at h
      split at h
      · rename_i c hc
        simp at h
        exact ⟨0, x, c, by simp, hc, by simpa using h⟩
      · simp at h
    · obtain ⟨i, x, c, h1, h2, h3⟩ := ih h
      exact ⟨i + 1, x, c, by simpa using h1, h2, by rw [h3, show i0 + 1 + i = i0 + (i + 1) by omega]⟩

theorem leaveActs_mem {g i0 : Nat} {os : List Nat} (i x : Nat) (c : Conn) (h1 : os[i]? = some x) (h2 : T.outletConns x = [c]) :
    Act.link (c.src, c.outlet) (g, i0 + i) (T.fanout g (i0 + i)) ∈ leaveActs T g i0 os := by
  induction os generalizing i0 i with
  | nil => simp at h1
  | cons x' os ih =>
    rw [leaveActs, List.mem_append]
    cases i with
    | zero => simp at h1; subst h1; left; simp [leaveAct, h2]
    | succ i =>
      right
      have := ih (i0 := i0 + 1) i (by simpa using h1)
      rwa [show i0 + 1 + i = i0 + (i + 1) by omega] at this

/-- what the steps are -/
inductive ActIs (T : Tree) : Act → Prop
  | atom (g : Nat) (s : Sub) (o : Nat) (h : T.sub g = some s) (h1 : o ∈ s.ids) (h2 : T.sub o = none) (h3 : (T.obj o).signal = true) :
      ActIs T (.atom o)
  | enter (g : Nat) (s : Sub) (i x n : Nat) (l : Inlet) (c : Conn) (h : T.sub g = some s) (h1 : s.ins[i]? = some (x, n))
      (h2 : (T.obj g).inlets[i]? = some l) (h3 : l.conns.filter (·.isSignal) = [c]) :
      ActIs T (.link (c.src, c.outlet) (x, 0) n)
  | leave (g : Nat) (s : Sub) (i x : Nat) (c : Conn) (h : T.sub g = some s) (h1 : s.outs[i]? = some x)
      (h2 : T.outletConns x = [c]) : ActIs T (.link (c.src, c.outlet) (g, i) (T.fanout g i))

theorem acts_is (wf : TreeWF T root rank) (f : Nat) : ∀ g, ∀ a ∈ T.acts f g, ActIs T a := by
  induction f with
  | zero => simp [Tree.acts]
  | succ f ih =>
    intro g a ha
    rw [Tree.acts] at ha
    split at ha
    · simp at ha
    · rename_i s hs
      rcases List.mem_append.mp ha with ha | ha
      · obtain ⟨i, x, n, l, c, h1, h2, h3, rfl⟩ := mem_enterActs ha
        exact .enter g s i x n l c hs h1 h2 h3
      rcases List.mem_append.mp ha with ha | ha
      · obtain ⟨o, ho, ha⟩ := List.mem_flatMap.mp ha
        obtain ⟨h1, h2⟩ := mem_order wf hs ho
        split at ha
        · exact ih o a ha
        · rename_i hn
          simp at ha hn
          subst ha
          exact .atom g s o hs h1 hn (by rw [← sig_atom hn]; exact h2)
      · obtain ⟨i, x, c, h1, h2, rfl⟩ := mem_leaveActs ha
        rw [Nat.zero_add]
        exact .leave g s i x c hs h1 h2

theorem ins_child (wf : TreeWF T root rank) {g : Nat} {s : Sub} (hs : T.sub g = some s) {i x n : Nat}
    (h : s.ins[i]? = some (x, n)) : Child T x g := ⟨s, hs, (wf.ins g s hs x n (List.mem_of_getElem? h)).1⟩

theorem touches_under (wf : TreeWF T root rank) (f : Nat) : ∀ g, ∀ a ∈ T.acts f g, ∀ pk, a.touches pk → Under T pk.1 g := by
  induction f with
  | zero => simp [Tree.acts]
  | succ f ih =>
    intro g a ha pk hp
    rw [Tree.acts] at ha
    split at ha
    · simp at ha
    · rename_i s hs
      rcases List.mem_append.mp ha with ha | ha
      · obtain ⟨i, x, n, l, c, h1, h2, h3, rfl⟩ := mem_enterActs ha
        rw [show pk = (x, 0) from hp]
        exact .single (ins_child wf hs h1)
      rcases List.mem_append.mp ha with ha | ha
      · obtain ⟨o, ho, ha⟩ := List.mem_flatMap.mp ha
        have hc : Child T o g := ⟨s, hs, (mem_order wf hs ho).1⟩
        split at ha
        · exact (ih o a ha pk hp).tail hc
        · simp at ha
          subst ha
          rw [show pk.1 = o from hp]
          exact .single hc
      · obtain ⟨i, x, c, h1, h2, rfl⟩ := mem_leaveActs ha
        rw [show pk = (g, 0 + i) from hp]

theorem enterActs_disj {ls : List Inlet} {ins : List (Nat × Nat)} (hn : (ins.map (·.1)).Nodup) :
    (enterActs ls ins).Pairwise fun a b => ∀ pk, a.touches pk → ¬ b.touches pk := by
  induction ls generalizing ins with
  | nil => simp [enterActs]
  | cons l ls ih =>
    rw [enterActs, List.pairwise_append]
    have hn' : (ins.tail.map (·.1)).Nodup := by
      cases ins with
      | nil => simp
      | cons x ins => exact (List.nodup_cons.mp hn).2
    refine ⟨?_, ih hn', fun a ha b hb pk h1 h2 => ?_⟩
    · unfold enterAct; split <;> simp
    · unfold enterAct at ha
      split at ha
      · rename_i c o n ins hf
        simp at ha
        subst ha
        obtain ⟨i, x, n', l', c', h3, -, -, rfl⟩ := mem_enterActs hb
        rw [show pk = (o, 0) from h1] at h2
        have hox : o = x := (Prod.mk.inj (show (o, 0) = (x, 0) from h2)).1
        simp only [List.tail_cons, List.map_cons, List.nodup_cons] at h3 hn
        exact hn.1 (List.mem_map.mpr ⟨(x, n'), List.mem_of_getElem? h3, hox.symm⟩)
      · simp at ha

theorem leaveActs_disj {g i0 : Nat} {os : List Nat} :
    (leaveActs T g i0 os).Pairwise fun a b => ∀ pk, a.touches pk → ¬ b.touches pk := by
  induction os generalizing i0 with
  | nil => simp [leaveActs]
  | cons x os ih =>
    rw [leaveActs, List.pairwise_append]
    refine ⟨?_, ih, fun a ha b hb pk h1 h2 => ?_⟩
    · unfold leaveAct; split <;> simp
    · unfold leaveAct at ha
      split at ha
      · simp at ha
        subst ha
        obtain ⟨i, x, c', -, -, rfl⟩ := mem_leaveActs hb
        rw [show pk = (g, i0) from h1] at h2
        have := (Prod.mk.inj (show (g, i0) = (g, i0 + 1 + i) from h2)).2
        omega
      · simp at ha

theorem order_nodup (wf : TreeWF T root rank) {g : Nat} {s : Sub} (hs : T.sub g = some s) : (T.level s).signalOrder.Nodup :=
  (signal_order_correct _ (level_closed wf hs)).1

theorem ins_nosig (wf : TreeWF T root rank) {g : Nat} {s : Sub} (hs : T.sub g = some s) {i x n : Nat}
    (h : s.ins[i]? = some (x, n)) : T.sig x = false := by
  obtain ⟨-, h1, h2, -⟩ := wf.ins g s hs x n (List.mem_of_getElem? h)
  rw [sig_atom h1, h2]

theorem acts_disj (wf : TreeWF T root rank) (f : Nat) :
    ∀ g, (T.acts f g).Pairwise fun a b => ∀ pk, a.touches pk → ¬ b.touches pk := by
  induction f with
  | zero => simp [Tree.acts]
  | succ f ih =>
    intro g
    rw [Tree.acts]
    split
    · simp
    · rename_i s hs
      -- what the blocks touch
      have block : ∀ o ∈ (T.level s).signalOrder, ∀ a ∈ (if (T.sub o).isSome then T.acts f o else [.atom o]), ∀ pk, a.touches pk →
          Under T pk.1 o := by
        intro o ho a ha pk hp
        split at ha
        · exact touches_under wf f o a ha pk hp
        · simp at ha
          subst ha
          rw [show pk.1 = o from hp]
      have child : ∀ o ∈ (T.level s).signalOrder, Child T o g := fun o ho => ⟨s, hs, (mem_order wf hs ho).1⟩
      rw [List.pairwise_append, List.pairwise_append, List.pairwise_flatMap]
      refine ⟨enterActs_disj (wf.insNodup g s hs), ⟨⟨fun o ho => ?_, ?_⟩, leaveActs_disj, fun a ha b hb pk h1 h2 => ?_⟩,
        fun a ha b hb pk h1 h2 => ?_⟩
      · split
        · exact ih o
        · simp
      · refine (order_nodup wf hs).imp_of_mem fun {o o'} ho ho' hne a ha b hb pk h1 h2 => ?_
        exact hne (under_sib wf (block o ho a ha pk h1) (block o' ho' b hb pk h2) (child o ho) (child o' ho'))
      · obtain ⟨o, ho, ha⟩ := List.mem_flatMap.mp ha
        obtain ⟨i, x, c', -, -, rfl⟩ := mem_leaveActs hb
        have := block o ho a ha pk h1
        rw [show pk = (g, 0 + i) from h2] at this
        exact under_child wf this (child o ho) rfl
      · obtain ⟨i, x, n, l, c, h3, h4, h5, rfl⟩ := mem_enterActs ha
        have hx := ins_child wf hs h3
        rw [show pk = (x, 0) from h1] at h2
        rcases List.mem_append.mp hb with hb | hb
        · obtain ⟨o, ho, hb⟩ := List.mem_flatMap.mp hb
          have := under_sib wf .refl (block o ho b hb _ h2) hx (child o ho)
          simp only at this
          subst this
          have h6 := (mem_order wf hs ho).2
          rw [ins_nosig wf hs h3] at h6
          simp at h6
        · obtain ⟨j, y, c', -, -, rfl⟩ := mem_leaveActs hb
          have := (Prod.mk.inj (show (x, 0) = (g, 0 + j) from h2)).1
          exact under_child wf .refl hx this

/-! ### the connections -/

/-- whose connections the steps use -/
def Tree.readers (T : Tree) : Nat → Nat → List Nat
  | 0, _ => []
  | f + 1, g =>
    match T.sub g with
    | none => []
    | some s => g :: ((T.level s).signalOrder.flatMap (fun o => if (T.sub o).isSome then T.readers f o else [o]) ++ s.outs)

theorem enterActs_reads {ls : List Inlet} {ins : List (Nat × Nat)} (hl : ls.length ≤ ins.length)
    (one : ∀ l ∈ ls, (l.conns.filter (·.isSignal)).length ≤ 1) :
    (enterActs ls ins).flatMap (Act.reads T.obj) = readsOf ls := by
  induction ls generalizing ins with
  | nil => rfl
  | cons l ls ih =>
    cases ins with
    | nil => simp at hl
    | cons x ins =>
      rw [enterActs, List.flatMap_append, List.tail_cons, ih (by simpa using hl) fun l h => one l (by simp [h])]
      rw [show readsOf (l :: ls) = ((l.conns.filter (·.isSignal)).map fun c => (c.src, c.outlet)) ++ readsOf ls from rfl]
      congr 1
      cases hf : l.conns.filter (·.isSignal) with
      | nil => simp [enterAct]
      | cons c cs =>
        cases cs with
        | cons c' cs => have := one l (by simp); rw [hf] at this; simp at this
        | nil => simp [Act.reads, enterAct]

theorem leaveActs_reads {g i0 : Nat} {os : List Nat} (one : ∀ x ∈ os, (T.outletConns x).length ≤ 1)
    (h1 : ∀ x ∈ os, (T.obj x).inlets.length ≤ 1) :
    (leaveActs T g i0 os).flatMap (Act.reads T.obj) = os.flatMap fun x => readsOf (T.obj x).inlets := by
  induction os generalizing i0 with
  | nil => rfl
  | cons x os ih =>
    rw [leaveActs, List.flatMap_append, List.flatMap_cons, ih (fun x h => one x (by simp [h])) fun x h => h1 x (by simp [h])]
    congr 1
    have e : readsOf (T.obj x).inlets = (T.outletConns x).map fun c => (c.src, c.outlet) := by
      unfold Tree.outletConns
      have := h1 x (by simp)
      cases hl : (T.obj x).inlets with
      | nil => rfl
      | cons l ls =>
        rw [hl] at this
        cases ls with
        | nil => simp [readsOf]
        | cons l' ls => simp at this
    rw [e]
    cases hf : T.outletConns x with
    | nil => simp [leaveAct]
    | cons c cs =>
      cases cs with
      | cons c' cs => have := one x (by simp); rw [hf] at this; simp at this
      | nil => simp [Act.reads, leaveAct]

theorem flatMap_congr' {β γ : Type} {l : List β} {f g : β → List γ} (h : ∀ x ∈ l, f x = g x) : l.flatMap f = l.flatMap g := by
  induction l with
  | nil => rfl
  | cons x l ih => simp [h x (by simp), ih fun y hy => h y (by simp [hy])]

theorem acts_reads (wf : TreeWF T root rank) (f : Nat) :
    ∀ g, rank g < f → (∀ l ∈ (T.obj g).inlets, (l.conns.filter (·.isSignal)).length ≤ 1) →
    (T.acts f g).flatMap (Act.reads T.obj) = (T.readers f g).flatMap fun r => readsOf (T.obj r).inlets := by
  induction f with
  | zero => intro g h; omega
  | succ f ih =>
    intro g hr hone
    rw [Tree.acts, Tree.readers]
    cases hs : T.sub g with
    | none => rfl
    | some s =>
      simp only
      rw [List.flatMap_append, enterActs_reads (wf.lets g s hs).1 hone, List.flatMap_append,
        leaveActs_reads (outletConns_one wf hs) fun x hx => (wf.outs g s hs x hx).2.2.2.2,
        List.flatMap_cons, List.flatMap_append, List.flatMap_assoc, List.flatMap_assoc]
      congr 2
      refine flatMap_congr' fun o ho => ?_
      obtain ⟨h1, -⟩ := mem_order wf hs ho
      split
      · have := wf.nest o g ⟨s, hs, h1⟩
        exact ih o (by omega) (wf.one g s hs o h1)
      · simp [Act.reads]

theorem readers_under (wf : TreeWF T root rank) (f : Nat) : ∀ g, ∀ r ∈ T.readers f g, Under T r g := by
  induction f with
  | zero => simp [Tree.readers]
  | succ f ih =>
    intro g r hr
    rw [Tree.readers] at hr
    split at hr
    · simp at hr
    · rename_i s hs
      rcases List.mem_cons.mp hr with rfl | hr
      · exact .refl
      rcases List.mem_append.mp hr with hr | hr
      · obtain ⟨o, ho, hr⟩ := List.mem_flatMap.mp hr
        have hc : Child T o g := ⟨s, hs, (mem_order wf hs ho).1⟩
        split at hr
        · exact (ih o r hr).tail hc
        · simp at hr
          subst hr
          exact .single hc
      · exact .single ⟨s, hs, (wf.outs g s hs r hr).1⟩

theorem readers_nodup (wf : TreeWF T root rank) (f : Nat) : ∀ g, (T.readers f g).Nodup := by
  induction f with
  | zero => simp [Tree.readers]
  | succ f ih =>
    intro g
    rw [Tree.readers]
    split
    · simp
    · rename_i s hs
      have block : ∀ o ∈ (T.level s).signalOrder, ∀ r ∈ (if (T.sub o).isSome then T.readers f o else [o]), Under T r o := by
        intro o ho r hr
        split at hr
        · exact readers_under wf f o r hr
        · simp at hr
          rw [hr]
      have child : ∀ o ∈ (T.level s).signalOrder, Child T o g := fun o ho => ⟨s, hs, (mem_order wf hs ho).1⟩
      rw [List.nodup_cons]
      refine ⟨fun hm => ?_, ?_⟩
      · rcases List.mem_append.mp hm with hm | hm
        · obtain ⟨o, ho, hr⟩ := List.mem_flatMap.mp hm
          exact under_child wf (block o ho g hr) (child o ho) rfl
        · exact under_child wf .refl ⟨s, hs, (wf.outs g s hs g hm).1⟩ rfl
      · rw [List.nodup_append]
        refine ⟨List.pairwise_flatMap.mpr ⟨fun o ho => ?_, ?_⟩, wf.outsNodup g s hs, fun a ha b hb => ?_⟩
        · split
          · exact ih o
          · simp
        · refine (order_nodup wf hs).imp_of_mem fun {o o'} ho ho' hne a ha b hb e => ?_
          subst e
          exact hne (under_sib wf (block o ho a ha) (block o' ho' a hb) (child o ho) (child o' ho'))
        · rintro rfl
          obtain ⟨o, ho, hr⟩ := List.mem_flatMap.mp ha
          obtain ⟨h1, h2, h3, -⟩ := wf.outs g s hs a hb
          have := under_sib wf .refl (block o ho a hr) ⟨s, hs, h1⟩ (child o ho)
          subst this
          have h6 := (mem_order wf hs ho).2
          rw [sig_atom h2, h3] at h6
          simp at h6

theorem count_flatMap_filter {β γ : Type} [BEq γ] [LawfulBEq γ] (f : β → List γ) (P : β → Bool) (l : List β) (x : γ)
    (h : ∀ b ∈ l, x ∈ f b → P b) : (l.flatMap f).count x = ((l.filter P).flatMap f).count x := by
  induction l with
  | nil => rfl
  | cons b l ih =>
    rw [List.flatMap_cons, List.count_append, ih fun c hc => h c (by simp [hc])]
    by_cases hp : P b
    · rw [List.filter_cons_of_pos hp, List.flatMap_cons, List.count_append]
    · rw [List.filter_cons_of_neg hp, List.count_eq_zero.mpr fun hx => hp (h b (by simp) hx), Nat.zero_add]

/-- a signal connection comes from an object of the same graph -/
theorem reads_child (wf : TreeWF T root rank) {r : Nat} {pk : Nat × Nat} (hr : Under T r root)
    (h : pk ∈ readsOf (T.obj r).inlets) : ∃ g s, T.sub g = some s ∧ r ∈ s.ids ∧ pk.1 ∈ s.ids := by
  obtain ⟨l, hl, hm⟩ := List.mem_flatMap.mp h
  obtain ⟨c, hc, rfl⟩ := List.mem_map.mp hm
  have hc := (List.mem_filter.mp hc).1
  rcases ReflTransGen.cases_head hr with rfl | ⟨g, ⟨s, hs, h1⟩, -⟩
  · rw [wf.rootIn l hl] at hc
    simp at hc
  · exact ⟨g, s, hs, h1, wf.closed g s hs r h1 l hl c hc⟩

/-- the connections to an outlet that the steps use are connections of its graph -/
theorem reads_count (wf : TreeWF T root rank) {g : Nat} {s : Sub} (hs : T.sub g = some s) (pk : Nat × Nat) (h : pk.1 ∈ s.ids) :
    ((T.acts (T.depth + 1) root).flatMap (Act.reads T.obj)).count pk ≤ (T.readsIn s).count pk := by
  have hd := wf.depth
  rw [acts_reads wf (T.depth + 1) root (by omega) fun l hl => by rw [wf.rootIn l hl]; simp]
  rw [count_flatMap_filter _ (fun r => decide (r ∈ s.ids))]
  · refine subperm_flatMap_count _ (((readers_nodup wf _ root).filter _).subperm fun r hr => ?_) pk
    simpa using (List.mem_filter.mp hr).2
  · intro r hr hx
    obtain ⟨g', s', h1, h2, h3⟩ := reads_child wf (readers_under wf _ _ r hr) hx
    have := wf.parent pk.1 g g' ⟨s, hs, h⟩ ⟨s', h1, h3⟩
    subst this
    rw [hs] at h1
    cases h1
    simpa using h2

theorem reads_root (wf : TreeWF T root rank) (k : Nat) :
    ((T.acts (T.depth + 1) root).flatMap (Act.reads T.obj)).count (root, k) = 0 := by
  have hd := wf.depth
  rw [acts_reads wf (T.depth + 1) root (by omega) fun l hl => by rw [wf.rootIn l hl]; simp]
  refine List.count_eq_zero.mpr fun hm => ?_
  obtain ⟨r, hr, hx⟩ := List.mem_flatMap.mp hm
  obtain ⟨g, s, h1, h2, h3⟩ := reads_child wf (readers_under wf _ _ r hr) hx
  exact wf.top g ⟨s, h1, h3⟩

end

end Verif.Signal
