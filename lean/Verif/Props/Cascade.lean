import Verif.Cascade
import Verif.Props.SignalBuffers
import Mathlib.Algebra.BigOperators.Group.List.Basic
/-!
# C33: several signals at one inlet are added

Specification: `SumFlow g F inp env` — the signals of a patch when every inlet receives the sum of all signals connected to it.
-/
namespace Verif.Signal
open Relation

/-! ### specification -/

/-- the sum of the signals at an inlet -/
def inletSum {α : Type} [AddCommMonoid α] (env : Nat → Nat → α) (l : Inlet) : α :=
  ((l.conns.filter (·.isSignal)).map fun c => env c.src c.outlet).sum

/-- the signals of a patch with several signals at an inlet -/
structure SumFlow {α : Type} [AddCommMonoid α] (g : Graph) (F : Nat → List α → List α) (inp : Nat → α) (env : Nat → Nat → α) :
    Prop where
  ext : ∀ p ∈ g.ids, ∀ k out ch, (g.obj p).outlets[k]? = some out → out.preset = .input ch → env p k = inp ch
  obj : ∀ o ∈ g.ids, (g.obj o).signal → dacChan (g.obj o) = none → ∀ k v,
    (F o ((g.obj o).inlets.map (inletSum env)))[k]? = some v → env o k = v

/-- what reaches output channel `c` -/
def patchOutput {α : Type} [AddCommMonoid α] (g : Graph) (env : Nat → Nat → α) (c : Nat) : α :=
  ((g.ids.filter fun o => (g.obj o).signal ∧ dacChan (g.obj o) = some c).map fun o =>
    ((g.obj o).inlets.map (inletSum env)).headD 0).sum

/-- well-formed graphs with any number of signals at an inlet -/
structure MWF (g : Graph) : Prop where
  nodup : g.ids.Nodup
  kinds : ∀ o ∈ g.ids, (g.obj o).signal →
    ((∀ l ∈ (g.obj o).inlets, l.preset = .zero) ∧ (∀ l ∈ (g.obj o).outlets, l.preset = .zero)) ∨
    ∃ conns c, g.obj o = dacObj conns c
  source : ∀ o ∈ g.ids, ∀ l ∈ (g.obj o).inlets, ∀ c ∈ l.conns, c.isSignal → c.src ∈ g.ids ∧
    ∃ out, (g.obj c.src).outlets[c.outlet]? = some out ∧
      (((g.obj c.src).signal = true ∧ out.ty ≠ none ∧ out.preset = .zero) ∨
       ((g.obj c.src).signal = false ∧ ∃ ch, out.preset = .input ch))
  presets : ∀ (p k : Nat) (out : Outlet), (g.obj p).outlets[k]? = some out → ∀ t i, out.preset ≠ .tmp t i
  count : ∀ p ∈ g.ids, ∀ k out, (g.obj p).outlets[k]? = some out → (g.ids.flatMap g.reads).count (p, k) ≤ out.conns

/-- no signal connection closes a cycle -/
def NoCycle (g : Graph) : Prop := ∀ o ∈ g.ids, ∀ pk ∈ g.reads o, ¬ Reach g o pk.1

/-! ### one step: two signals at an inlet are replaced by their sum -/

/-- `g'` is `g` with a new `__add~f` number `n` that takes the signals `c`, `d` from inlet `i` of `o` -/
structure Pair (g g' : Graph) (n o i : Nat) (c d : Conn) (l l' : Inlet) (rest : List Conn) : Prop where
  ids : g'.ids = g.ids ++ [n]
  fresh : ∀ p ∈ g.ids, p < n
  mem : o ∈ g.ids
  inl : (g.obj o).inlets[i]? = some l
  conns : l.conns.Perm (c :: d :: rest)
  hc : c.isSignal = true
  hd : d.isSignal = true
  objn : g'.obj n = addObjF c d
  objo : g'.obj o = { g.obj o with inlets := (g.obj o).inlets.set i l' }
  pre : l'.preset = l.preset
  conns' : l'.conns.Perm (⟨n, 0, true⟩ :: rest)
  other : ∀ p, p ≠ n → p ≠ o → g'.obj p = g.obj p

/-- what every step guarantees -/
structure Refines (g : Graph) (n : Nat) (g' : Graph) (n' : Nat) : Prop where
  le : n ≤ n'
  ids : ∃ new, g'.ids = g.ids ++ new ∧ ∀ o ∈ new, n ≤ o ∧ o < n' ∧ (g'.obj o).inlets.length = 2 ∧
    (g'.obj o).outlets = [⟨some .f, 1, .zero⟩] ∧ (g'.obj o).signal = true
  outlets : ∀ o ∈ g.ids, (g'.obj o).outlets = (g.obj o).outlets
  signal : ∀ o ∈ g.ids, (g'.obj o).signal = (g.obj o).signal
  inlets : ∀ o ∈ g.ids, (g'.obj o).inlets.length = (g.obj o).inlets.length
  conns : ∀ o ∈ g'.ids, ∀ l ∈ (g'.obj o).inlets, ∀ c ∈ l.conns,
    c.isSignal = true ∨ ∃ o0 ∈ g.ids, ∃ l0 ∈ (g.obj o0).inlets, c ∈ l0.conns
  wf : MWF g → MWF g'
  closed : Closed g → Closed g'
  nocycle : Closed g → NoCycle g → NoCycle g'
  back : ∀ {α : Type} [AddCommMonoid α] (F : Nat → List α → List α) (inp : Nat → α) (env : Nat → Nat → α),
    (∀ o, n ≤ o → o < n' → ∀ x y, F o [x, y] = [x + y]) → SumFlow g' F inp env →
    SumFlow g F inp env ∧ ∀ o ∈ g.ids, (g'.obj o).inlets.map (inletSum env) = (g.obj o).inlets.map (inletSum env)
  fwd : ∀ {α : Type} [AddCommMonoid α] (F : Nat → List α → List α) (inp : Nat → α) (env : Nat → Nat → α),
    (∀ o, n ≤ o → o < n' → ∀ x y, F o [x, y] = [x + y]) → Closed g → SumFlow g F inp env →
    ∃ env', (∀ o, o < n → env' o = env o) ∧ SumFlow g' F inp env'
  paths : Closed g → ∀ a b, b ∈ g.ids → Reach g a b → Reach g' a b

theorem Refines.lt {g g' : Graph} {n n' : Nat} (h : Refines g n g' n') (hn : ∀ p ∈ g.ids, p < n) : ∀ p ∈ g'.ids, p < n' := by
  intro p hp
  obtain ⟨new, e, hnew⟩ := h.ids
  rw [e] at hp
  rcases List.mem_append.mp hp with h1 | h1
  · exact Nat.lt_of_lt_of_le (hn p h1) h.le
  · exact (hnew p h1).2.1

theorem Refines.trans {g g1 g2 : Graph} {n n1 n2 : Nat} (h1 : Refines g n g1 n1) (h2 : Refines g1 n1 g2 n2) :
    Refines g n g2 n2 := by
  have hsub : ∀ o ∈ g.ids, o ∈ g1.ids := by
    obtain ⟨new, e, -⟩ := h1.ids
    intro o ho
    rw [e]; simp [ho]
  refine ⟨Nat.le_trans h1.le h2.le, ?_, fun o ho => (h2.outlets o (hsub o ho)).trans (h1.outlets o ho),
    fun o ho => (h2.signal o (hsub o ho)).trans (h1.signal o ho),
    fun o ho => (h2.inlets o (hsub o ho)).trans (h1.inlets o ho), fun o ho l hl c hc => ?_, fun w => h2.wf (h1.wf w), fun w => h2.closed (h1.closed w),
    fun w w' => h2.nocycle (h1.closed w) (h1.nocycle w w'), fun F inp env hF hf => ?_, fun F inp env hF hc hf => ?_,
    fun w a b hb h => h2.paths (h1.closed w) a b (hsub b hb) (h1.paths w a b hb h)⟩
  · obtain ⟨new1, e1, k1⟩ := h1.ids
    obtain ⟨new2, e2, k2⟩ := h2.ids
    refine ⟨new1 ++ new2, by rw [e2, e1]; simp, fun o ho => ?_⟩
    rcases List.mem_append.mp ho with h | h
    · obtain ⟨a1, a2, a3, a4, a5⟩ := k1 o h
      have hm : o ∈ g1.ids := by rw [e1]; simp [h]
      exact ⟨a1, Nat.lt_of_lt_of_le a2 h2.le, (h2.inlets o hm).trans a3, (h2.outlets o hm).trans a4,
        (h2.signal o hm).trans a5⟩
    · obtain ⟨a1, a2, a3⟩ := k2 o h
      exact ⟨Nat.le_trans h1.le a1, a2, a3⟩
  · rcases h2.conns o ho l hl c hc with h | ⟨o0, ho0, l0, hl0, hc0⟩
    · exact Or.inl h
    · exact h1.conns o0 ho0 l0 hl0 c hc0
  · obtain ⟨hf1, he1⟩ := h2.back F inp env (fun o ho ho' => hF o (Nat.le_trans h1.le ho) ho') hf
    obtain ⟨hf0, he0⟩ := h1.back F inp env (fun o ho ho' => hF o ho (Nat.lt_of_lt_of_le ho' h2.le)) hf1
    exact ⟨hf0, fun o ho => (he1 o (hsub o ho)).trans (he0 o ho)⟩
  · obtain ⟨env1, a1, a2⟩ := h1.fwd F inp env (fun o ho ho' => hF o ho (Nat.lt_of_lt_of_le ho' h2.le)) hc hf
    obtain ⟨env2, b1, b2⟩ := h2.fwd F inp env1 (fun o ho ho' => hF o (Nat.le_trans h1.le ho) ho') (h1.closed hc) a2
    exact ⟨env2, fun o ho => (b1 o (Nat.lt_of_lt_of_le ho h1.le)).trans (a1 o ho), b2⟩

theorem set_split {β : Type} {L : List β} {i : Nat} {l : β} (h : L[i]? = some l) :
    ∃ A B, L = A ++ l :: B ∧ A.length = i ∧ ∀ l', L.set i l' = A ++ l' :: B := by
  obtain ⟨hi, rfl⟩ := List.getElem?_eq_some_iff.mp h
  refine ⟨L.take i, L.drop (i + 1), by simp, by simp; omega, fun l' => ?_⟩
  rw [List.set_eq_take_append_cons_drop, if_pos hi]

theorem reads_cons (l : Inlet) (ls : List Inlet) :
    readsOf (l :: ls) = ((l.conns.filter (·.isSignal)).map fun c => (c.src, c.outlet)) ++ readsOf ls := rfl

theorem reads_append (a b : List Inlet) : readsOf (a ++ b) = readsOf a ++ readsOf b := List.flatMap_append

namespace Pair
variable {g g' : Graph} {n o i : Nat} {c d : Conn} {l l' : Inlet} {rest : List Conn}

theorem ne (P : Pair g g' n o i c d l l' rest) : n ≠ o := fun e => Nat.lt_irrefl _ (e ▸ P.fresh o P.mem)

theorem notmem (P : Pair g g' n o i c d l l' rest) : n ∉ g.ids := fun h => Nat.lt_irrefl _ (P.fresh n h)

theorem same (P : Pair g g' n o i c d l l' rest) {p : Nat} (hp : p ∈ g.ids) (ho : p ≠ o) : g'.obj p = g.obj p :=
  P.other p (fun e => P.notmem (e ▸ hp)) ho

theorem outlets (P : Pair g g' n o i c d l l' rest) {p : Nat} (hp : p ∈ g.ids) : (g'.obj p).outlets = (g.obj p).outlets := by
  by_cases e : p = o
  · subst e; rw [P.objo]
  · rw [P.same hp e]

theorem signal (P : Pair g g' n o i c d l l' rest) {p : Nat} (hp : p ∈ g.ids) : (g'.obj p).signal = (g.obj p).signal := by
  by_cases e : p = o
  · subst e; rw [P.objo]
  · rw [P.same hp e]

theorem perm (P : Pair g g' n o i c d l l' rest) :
    ∃ A B, (g.obj o).inlets = A ++ l :: B ∧ (g'.obj o).inlets = A ++ l' :: B := by
  obtain ⟨A, B, h1, -, h2⟩ := set_split P.inl
  exact ⟨A, B, h1, by rw [P.objo]; exact h2 l'⟩

theorem reads_o (P : Pair g g' n o i c d l l' rest) : ∃ R, (g.reads o).Perm ((c.src, c.outlet) :: (d.src, d.outlet) :: R) ∧
    (g'.reads o).Perm ((n, 0) :: R) := by
  obtain ⟨A, B, h1, h2⟩ := P.perm
  let f : List Conn → List (Nat × Nat) := fun cs => (cs.filter (·.isSignal)).map fun c => (c.src, c.outlet)
  have hf : ∀ a b : List Conn, a.Perm b → (f a).Perm (f b) := fun a b h => (h.filter _).map _
  refine ⟨readsOf A ++ (f rest ++ readsOf B), ?_, ?_⟩
  · rw [Graph.reads, h1, reads_append, reads_cons]
    have e : (f l.conns).Perm ((c.src, c.outlet) :: (d.src, d.outlet) :: f rest) := by
      have := hf _ _ P.conns
      simpa [f, P.hc, P.hd] using this
    refine ((e.append_right _).append_left _).trans ?_
    refine (List.perm_middle).trans ?_
    exact (List.Perm.cons _ List.perm_middle)
  · rw [Graph.reads, h2, reads_append, reads_cons]
    have e : (f l'.conns).Perm ((n, 0) :: f rest) := by
      have := hf _ _ P.conns'
      simpa [f] using this
    exact ((e.append_right _).append_left _).trans List.perm_middle

theorem reads_n (P : Pair g g' n o i c d l l' rest) : g'.reads n = [(c.src, c.outlet), (d.src, d.outlet)] := by
  simp [Graph.reads, P.objn, addObjF, readsOf, P.hc, P.hd]

theorem reads_other (P : Pair g g' n o i c d l l' rest) {p : Nat} (hp : p ∈ g.ids) (ho : p ≠ o) : g'.reads p = g.reads p := by
  rw [Graph.reads, P.same hp ho, Graph.reads]

theorem total (P : Pair g g' n o i c d l l' rest) (hn : g.ids.Nodup) :
    (g'.ids.flatMap g'.reads).Perm ((n, 0) :: g.ids.flatMap g.reads) := by
  obtain ⟨R, h1, h2⟩ := P.reads_o
  obtain ⟨A, B, e⟩ := List.append_of_mem P.mem
  have hs : ∀ p ∈ A ++ B, g'.reads p = g.reads p := by
    intro p hp
    refine P.reads_other (by rw [e]; simp at hp ⊢; tauto) ?_
    rintro rfl
    rw [e] at hn
    exact (List.nodup_cons.mp (List.nodup_middle.mp hn)).1 hp
  have hA : A.flatMap g'.reads = A.flatMap g.reads := List.flatMap_congr fun p hp => hs p (by simp [hp])
  have hB : B.flatMap g'.reads = B.flatMap g.reads := List.flatMap_congr fun p hp => hs p (by simp [hp])
  rw [P.ids, e]
  simp only [List.flatMap_append, List.flatMap_cons, List.flatMap_nil, hA, hB, P.reads_n, List.append_nil]
  refine List.perm_iff_count.mpr fun x => ?_
  have k1 := List.perm_iff_count.mp h1 x
  have k2 := List.perm_iff_count.mp h2 x
  simp only [List.count_append, List.count_cons, List.count_nil] at *
  omega

theorem feeds_n (P : Pair g g' n o i c d l l' rest) {p : Nat} (h : Feeds g' p n) : p = c.src ∨ p = d.src := by
  obtain ⟨x, hx, y, hy, rfl⟩ := h
  rw [P.objn, addObjF] at hx
  simp at hx
  rcases hx with rfl | rfl <;> simp at hy <;> simp [hy]

theorem mem_l (P : Pair g g' n o i c d l l' rest) : l ∈ (g.obj o).inlets := List.mem_of_getElem? P.inl

theorem c_mem (P : Pair g g' n o i c d l l' rest) : c ∈ l.conns := P.conns.symm.subset (by simp)
theorem d_mem (P : Pair g g' n o i c d l l' rest) : d ∈ l.conns := P.conns.symm.subset (by simp)

theorem c_feeds (P : Pair g g' n o i c d l l' rest) : Feeds g c.src o := ⟨l, P.mem_l, c, P.c_mem, rfl⟩
theorem d_feeds (P : Pair g g' n o i c d l l' rest) : Feeds g d.src o := ⟨l, P.mem_l, d, P.d_mem, rfl⟩

/-- connections of `g'` -/
theorem conn_o (P : Pair g g' n o i c d l l' rest) {x : Inlet} (hx : x ∈ (g'.obj o).inlets) {y : Conn} (hy : y ∈ x.conns) :
    y = ⟨n, 0, true⟩ ∨ ∃ x' ∈ (g.obj o).inlets, y ∈ x'.conns := by
  obtain ⟨A, B, h1, h2⟩ := P.perm
  rw [h2] at hx
  rw [h1]
  simp only [List.mem_append, List.mem_cons] at hx ⊢
  rcases hx with h | rfl | h
  · exact Or.inr ⟨x, Or.inl h, hy⟩
  · have := P.conns'.subset hy
    simp only [List.mem_cons] at this
    rcases this with h | h
    · exact Or.inl h
    · exact Or.inr ⟨l, by simp, P.conns.symm.subset (by simp [h])⟩
  · exact Or.inr ⟨x, Or.inr (Or.inr h), hy⟩

theorem feeds_o (P : Pair g g' n o i c d l l' rest) {p : Nat} (h : Feeds g' p o) : p = n ∨ Feeds g p o := by
  obtain ⟨x, hx, y, hy, rfl⟩ := h
  rcases P.conn_o hx hy with rfl | ⟨x', hx', hy'⟩
  · exact Or.inl rfl
  · exact Or.inr ⟨x', hx', y, hy', rfl⟩

theorem feeds_other (P : Pair g g' n o i c d l l' rest) {p q : Nat} (hn : q ≠ n) (ho : q ≠ o) : Feeds g' p q ↔ Feeds g p q := by
  rw [Feeds, P.other q hn ho, Feeds]

theorem wf (P : Pair g g' n o i c d l l' rest) (w : MWF g) : MWF g' := by
  have hsig : l.conns.filter (·.isSignal) ≠ [] := by
    intro h
    have := List.mem_filter.mpr ⟨P.c_mem, P.hc⟩
    rw [h] at this; simp at this
  have old : ∀ o ∈ g.ids, ∀ l ∈ (g.obj o).inlets, ∀ c ∈ l.conns, c.isSignal → c.src ∈ g'.ids ∧
      ∃ out, (g'.obj c.src).outlets[c.outlet]? = some out ∧
      (((g'.obj c.src).signal = true ∧ out.ty ≠ none ∧ out.preset = .zero) ∨
       ((g'.obj c.src).signal = false ∧ ∃ ch, out.preset = .input ch)) := by
    intro o ho l hl c hc hs
    obtain ⟨h1, h2⟩ := w.source o ho l hl c hc hs
    rw [P.outlets h1, P.signal h1]
    exact ⟨by rw [P.ids]; simp [h1], h2⟩
  refine ⟨?_, fun q hq hs => ?_, fun q hq x hx y hy hys => ?_, fun p k out h t i' => ?_, fun p hp k out h => ?_⟩
  · rw [P.ids, List.nodup_append]
    exact ⟨w.nodup, by simp, fun a ha b hb => by simp at hb; subst hb; exact fun e => P.notmem (e ▸ ha)⟩
  · rw [P.ids] at hq
    rcases List.mem_append.mp hq with h | h
    · by_cases e : q = o
      · subst e
        rw [P.signal h] at hs
        rcases w.kinds q h hs with ⟨k1, k2⟩ | ⟨conns, ch, k⟩
        · refine Or.inl ⟨fun x hx => ?_, by rw [P.outlets h]; exact k2⟩
          obtain ⟨A, B, h1, h2⟩ := P.perm
          rw [h2] at hx
          rw [h1] at k1
          simp only [List.mem_append, List.mem_cons] at hx k1
          rcases hx with h | rfl | h
          · exact k1 x (Or.inl h)
          · rw [P.pre]; exact k1 l (by simp)
          · exact k1 x (by simp [h])
        · right
          have hi := P.inl
          rw [k, dacObj] at hi
          match i, hi with
          | 0, hi =>
            simp at hi
            refine ⟨l'.conns, ch, ?_⟩
            rw [P.objo, k, dacObj, dacObj]
            have : l' = ⟨l'.conns, .zero⟩ := by
              have := P.pre
              rw [← hi] at this
              cases l'; simp at this; simp [this]
            simp [← this]
          | 1, hi => simp at hi; rw [← hi] at hsig; simp at hsig
          | _ + 2, hi => simp at hi
      · rw [P.same h e] at hs ⊢
        exact w.kinds q h hs
    · simp at h
      subst h
      left
      rw [P.objn, addObjF]
      simp
  · rw [P.ids] at hq
    rcases List.mem_append.mp hq with h | h
    · by_cases e : q = o
      · subst e
        rcases P.conn_o hx hy with rfl | ⟨x', hx', hy'⟩
        · refine ⟨by rw [P.ids]; simp, ⟨some .f, 1, .zero⟩, ?_, Or.inl ?_⟩
          · simp [P.objn, addObjF]
          · simp [P.objn, addObjF]
        · exact old q h x' hx' y hy' hys
      · rw [P.same h e] at hx
        exact old q h x hx y hy hys
    · simp at h
      subst h
      rw [P.objn, addObjF] at hx
      simp at hx
      rcases hx with rfl | rfl <;> simp at hy <;> subst hy
      · exact old o P.mem l P.mem_l y P.c_mem hys
      · exact old o P.mem l P.mem_l y P.d_mem hys
  · by_cases e : p = n
    · subst e
      rw [P.objn, addObjF] at h
      cases k with
      | zero => simp at h; subst h; simp
      | succ k => simp at h
    · by_cases e' : p = o
      · subst e'
        rw [P.objo] at h
        exact w.presets p k out h t i'
      · rw [P.other p e e'] at h
        exact w.presets p k out h t i'
  · rw [(P.total w.nodup).count_eq]
    rw [P.ids] at hp
    rcases List.mem_append.mp hp with h' | h'
    · rw [P.outlets h'] at h
      have : (n, 0) ≠ (p, k) := fun e => P.notmem ((Prod.mk.inj e).1 ▸ h')
      rw [List.count_cons_of_ne this]
      exact w.count p h' k out h
    · simp at h'
      subst h'
      have h0 : (g.ids.flatMap g.reads).count (p, k) = 0 := by
        refine List.count_eq_zero.mpr fun hm => ?_
        obtain ⟨q, hq, hm⟩ := List.mem_flatMap.mp hm
        obtain ⟨x, hx, hm⟩ := List.mem_flatMap.mp hm
        obtain ⟨y, hy, e⟩ := List.mem_map.mp hm
        obtain ⟨hy1, hy2⟩ := List.mem_filter.mp hy
        have := (w.source q hq x hx y hy1 hy2).1
        rw [(Prod.mk.inj e).1] at this
        exact P.notmem this
      rw [P.objn, addObjF] at h
      cases k with
      | zero => simp at h; subst h; simp [h0]
      | succ k => simp at h

theorem closed (P : Pair g g' n o i c d l l' rest) (w : Closed g) : Closed g' := by
  intro q hq p hp
  rw [P.ids] at hq ⊢
  rcases List.mem_append.mp hq with h | h
  · by_cases e : q = o
    · subst e
      rcases P.feeds_o hp with rfl | hp
      · simp
      · simp [w q h p hp]
    · rw [P.feeds_other (fun e => P.notmem (e ▸ h)) e] at hp
      simp [w q h p hp]
  · simp at h
    subst h
    rcases P.feeds_n hp with rfl | rfl
    · simp [w o P.mem _ P.c_feeds]
    · simp [w o P.mem _ P.d_feeds]

theorem mem_ids (P : Pair g g' n o i c d l l' rest) {p : Nat} : p ∈ g'.ids ↔ p ∈ g.ids ∨ p = n := by
  rw [P.ids]; simp

/-- paths of `g'` from old objects -/
theorem reach (P : Pair g g' n o i c d l l' rest) (w : Closed g) {a b : Nat} (h : Reach g' a b) (ha : a ≠ n) :
    (b ∈ g.ids → Reach g a b) ∧ (b = n → ∃ p, (p = c.src ∨ p = d.src) ∧ Reach g a p) := by
  have hcs := w o P.mem _ P.c_feeds
  have hds := w o P.mem _ P.d_feeds
  induction h with
  | refl => exact ⟨fun _ => .refl, fun e => absurd e ha⟩
  | @tail b b' h1 h2 ih =>
    refine ⟨fun hb => ?_, fun hb => ?_⟩
    · by_cases e : b' = o
      · subst e
        rcases P.feeds_o h2 with rfl | h3
        · obtain ⟨p, rfl | rfl, hr⟩ := ih.2 rfl
          · exact hr.tail P.c_feeds
          · exact hr.tail P.d_feeds
        · exact (ih.1 (w _ hb _ h3)).tail h3
      · rw [P.feeds_other (fun e => P.notmem (e ▸ hb)) e] at h2
        exact (ih.1 (w _ hb _ h2)).tail h2
    · subst hb
      rcases P.feeds_n h2 with rfl | rfl
      · exact ⟨_, Or.inl rfl, ih.1 hcs⟩
      · exact ⟨_, Or.inr rfl, ih.1 hds⟩

/-- paths of `g'` from the new object to old ones lead through `o` -/
theorem reach_n (P : Pair g g' n o i c d l l' rest) (w : Closed g) {b : Nat} (h : Reach g' n b) (hb : b ∈ g.ids) :
    Reach g' o b := by
  rcases ReflTransGen.cases_head h with rfl | ⟨q, h1, h2⟩
  · exact absurd hb P.notmem
  · have hq : q ∈ g'.ids := by
      have hb' := P.mem_ids.mpr (Or.inl hb)
      clear h1 h
      induction h2 using ReflTransGen.head_induction_on with
      | refl => exact hb'
      | head h _ ih => exact P.closed w _ ih _ h
    rcases P.mem_ids.mp hq with hq | rfl
    · by_cases e : q = o
      · subst e; exact h2
      · rw [P.feeds_other (fun e => P.notmem (e ▸ hq)) e] at h1
        exact absurd (w q hq n h1) P.notmem
    · rcases P.feeds_n h1 with h | h
      · exact absurd (h ▸ w o P.mem _ P.c_feeds) P.notmem
      · exact absurd (h ▸ w o P.mem _ P.d_feeds) P.notmem

/-- paths of `g` remain -/
theorem paths (P : Pair g g' n o i c d l l' rest) (w : Closed g) {a b : Nat} (hb : b ∈ g.ids) (h : Reach g a b) : Reach g' a b := by
  have hnew : Feeds g' n o := by
    refine ⟨l', ?_, ⟨n, 0, true⟩, P.conns'.symm.subset (by simp), rfl⟩
    rw [P.objo]
    obtain ⟨hlt, -⟩ := List.getElem?_eq_some_iff.mp P.inl
    exact List.mem_of_getElem? (i := i) (by simp [hlt])
  induction h with
  | refl => exact .refl
  | @tail b b' h1 h2 ih =>
    refine (ih (w _ hb _ h2)).trans ?_
    by_cases e : b' = o
    · subst e
      obtain ⟨x, hx, y, hy, rfl⟩ := h2
      obtain ⟨j, hj⟩ := List.getElem?_of_mem hx
      by_cases ej : j = i
      · subst ej
        rw [P.inl] at hj
        cases hj
        have hy' := P.conns.subset hy
        simp only [List.mem_cons] at hy'
        rcases hy' with rfl | rfl | hy'
        · refine (ReflTransGen.single ?_).tail hnew
          exact ⟨⟨[y], .zero⟩, by rw [P.objn, addObjF]; simp, y, by simp, rfl⟩
        · refine (ReflTransGen.single ?_).tail hnew
          exact ⟨⟨[y], .zero⟩, by rw [P.objn, addObjF]; simp, y, by simp, rfl⟩
        · refine .single ⟨l', ?_, y, P.conns'.symm.subset (by simp [hy']), rfl⟩
          rw [P.objo]
          obtain ⟨hlt, -⟩ := List.getElem?_eq_some_iff.mp P.inl
          exact List.mem_of_getElem? (i := j) (by simp [hlt])
      · refine .single ⟨x, ?_, y, hy, rfl⟩
        rw [P.objo]
        exact List.mem_of_getElem? (i := j) (by simpa [List.getElem?_set, Ne.symm ej] using hj)
    · refine .single ((P.feeds_other (fun e' => P.notmem (e' ▸ hb)) e).mpr h2)

theorem nocycle (P : Pair g g' n o i c d l l' rest) (w : Closed g) (h : NoCycle g) : NoCycle g' := by
  have on : o ≠ n := Ne.symm P.ne
  obtain ⟨R, r1, r2⟩ := P.reads_o
  have hc := h o P.mem (c.src, c.outlet) (r1.symm.subset (by simp))
  have hd := h o P.mem (d.src, d.outlet) (r1.symm.subset (by simp))
  have feeds : ∀ q ∈ g.ids, ∀ pk ∈ g.reads q, pk.1 ∈ g.ids := by
    intro q hq pk hpk
    obtain ⟨x, hx, hm⟩ := List.mem_flatMap.mp hpk
    obtain ⟨y, hy, rfl⟩ := List.mem_map.mp hm
    exact w q hq _ ⟨x, hx, y, (List.mem_filter.mp hy).1, rfl⟩
  intro q hq pk hpk hr
  rcases P.mem_ids.mp hq with hq | rfl
  · have qn : q ≠ n := fun e => P.notmem (e ▸ hq)
    by_cases e : q = o
    · subst e
      have := r2.subset hpk
      rcases List.mem_cons.mp this with rfl | hm
      · obtain ⟨p, rfl | rfl, hr'⟩ := (P.reach w hr on).2 rfl
        · exact hc hr'
        · exact hd hr'
      · have hm' : pk ∈ g.reads q := r1.symm.subset (by simp [hm])
        exact h q hq pk hm' ((P.reach w hr qn).1 (feeds q hq pk hm'))
    · rw [P.reads_other hq e] at hpk
      exact h q hq pk hpk ((P.reach w hr qn).1 (feeds q hq pk hpk))
  · rw [P.reads_n] at hpk
    simp at hpk
    rcases hpk with rfl | rfl
    · have hs := w o P.mem _ P.c_feeds
      exact hc ((P.reach w (P.reach_n w hr hs) on).1 hs)
    · have hs := w o P.mem _ P.d_feeds
      exact hd ((P.reach w (P.reach_n w hr hs) on).1 hs)

section
variable {α : Type} [AddCommMonoid α]

theorem inletSum_perm {a b : Inlet} (h : a.conns.Perm b.conns) (env : Nat → Nat → α) : inletSum env a = inletSum env b :=
  ((h.filter _).map _).sum_eq

theorem sum_l (P : Pair g g' n o i c d l l' rest) (env : Nat → Nat → α) (hn : env n 0 = env c.src c.outlet + env d.src d.outlet) :
    inletSum env l' = inletSum env l := by
  have h1 : inletSum env l = _ := inletSum_perm (b := ⟨c :: d :: rest, .zero⟩) P.conns env
  have h2 : inletSum env l' = _ := inletSum_perm (b := ⟨⟨n, 0, true⟩ :: rest, .zero⟩) P.conns' env
  rw [h1, h2]
  simp [inletSum, P.hc, P.hd, hn, add_assoc]

theorem sums (P : Pair g g' n o i c d l l' rest) (env : Nat → Nat → α) (hn : env n 0 = env c.src c.outlet + env d.src d.outlet)
    {q : Nat} (hq : q ∈ g.ids) : (g'.obj q).inlets.map (inletSum env) = (g.obj q).inlets.map (inletSum env) := by
  by_cases e : q = o
  · subst e
    obtain ⟨A, B, h1, h2⟩ := P.perm
    rw [h1, h2]
    simp [P.sum_l env hn]
  · rw [P.same hq e]

theorem dac (P : Pair g g' n o i c d l l' rest) {q : Nat} (hq : q ∈ g.ids) : dacChan (g'.obj q) = dacChan (g.obj q) := by
  simp [dacChan, P.outlets hq]

theorem sums_n (P : Pair g g' n o i c d l l' rest) (env : Nat → Nat → α) :
    (g'.obj n).inlets.map (inletSum env) = [env c.src c.outlet, env d.src d.outlet] := by
  simp [P.objn, addObjF, inletSum, P.hc, P.hd]

theorem refines (P : Pair g g' n o i c d l l' rest) : Refines g n g' (n + 1) := by
  refine ⟨by omega, ⟨[n], P.ids, fun q hq => ?_⟩, fun q hq => P.outlets hq, fun q hq => P.signal hq, fun q hq => ?_, fun q hq x hx y hy => ?_, P.wf, P.closed,
    P.nocycle, fun F inp env hF hf => ?_, fun F inp env hF w hf => ?_, fun w a b hb h => P.paths w hb h⟩
  · simp at hq
    subst hq
    exact ⟨by omega, by omega, by simp [P.objn, addObjF], by simp [P.objn, addObjF], by simp [P.objn, addObjF]⟩
  · by_cases e : q = o
    · subst e; rw [P.objo]; simp
    · rw [P.same hq e]
  · rcases P.mem_ids.mp hq with hq | rfl
    · by_cases e : q = o
      · subst e
        rcases P.conn_o hx hy with rfl | ⟨x', hx', hy'⟩
        · exact Or.inl rfl
        · exact Or.inr ⟨q, hq, x', hx', hy'⟩
      · rw [P.same hq e] at hx
        exact Or.inr ⟨q, hq, x, hx, hy⟩
    · rw [P.objn, addObjF] at hx
      simp at hx
      rcases hx with rfl | rfl <;> simp at hy <;> subst hy
      · exact Or.inl P.hc
      · exact Or.inl P.hd
  · have hn : env n 0 = env c.src c.outlet + env d.src d.outlet := by
      refine hf.obj n (P.mem_ids.mpr (Or.inr rfl)) (by simp [P.objn, addObjF]) (by simp [P.objn, addObjF, dacChan]) 0 _ ?_
      rw [P.sums_n, hF n (by omega) (by omega)]
      rfl
    refine ⟨⟨fun p hp k out ch h => hf.ext p (P.mem_ids.mpr (Or.inl hp)) k out ch (by rw [P.outlets hp]; exact h),
      fun q hq hs hd k v hv => hf.obj q (P.mem_ids.mpr (Or.inl hq)) (by rw [P.signal hq]; exact hs) (by rw [P.dac hq]; exact hd) k v
        (by rw [P.sums env hn hq]; exact hv)⟩, fun q hq => P.sums env hn hq⟩
  · let env' : Nat → Nat → _ := fun q k => if q = n then env c.src c.outlet + env d.src d.outlet else env q k
    have hcn : c.src ≠ n := fun e => P.notmem (e ▸ w o P.mem _ P.c_feeds)
    have hdn : d.src ≠ n := fun e => P.notmem (e ▸ w o P.mem _ P.d_feeds)
    have hn : env' n 0 = env' c.src c.outlet + env' d.src d.outlet := by simp [env', hcn, hdn]
    have old : ∀ q ∈ g.ids, (g.obj q).inlets.map (inletSum env') = (g.obj q).inlets.map (inletSum env) := by
      intro q hq
      refine List.map_congr_left fun x hx => ?_
      unfold inletSum
      congr 1
      refine List.map_congr_left fun y hy => ?_
      have : y.src ≠ n := fun e => P.notmem (e ▸ w q hq _ ⟨x, hx, y, (List.mem_filter.mp hy).1, rfl⟩)
      simp [env', this]
    refine ⟨env', fun q hq => ?_, fun p hp k out ch h h' => ?_, fun q hq hs hd k v hv => ?_⟩
    · funext k
      simp only [env']
      rw [if_neg (by omega)]
    · rcases P.mem_ids.mp hp with hp | rfl
      · have : p ≠ n := fun e => P.notmem (e ▸ hp)
        simp only [env', if_neg this]
        exact hf.ext p hp k out ch (by rw [← P.outlets hp]; exact h) h'
      · rw [P.objn, addObjF] at h
        cases k with
        | zero => simp at h; subst h; simp at h'
        | succ k => simp at h
    · rcases P.mem_ids.mp hq with hq | rfl
      · have : q ≠ n := fun e => P.notmem (e ▸ hq)
        simp only [env', if_neg this]
        rw [P.sums env' hn hq, old q hq] at hv
        exact hf.obj q hq (by rw [← P.signal hq]; exact hs) (by rw [← P.dac hq]; exact hd) k v hv
      · rw [P.sums_n, hF q (by omega) (by omega)] at hv
        cases k with
        | zero => simp at hv; rw [← hv]; exact hn
        | succ k => simp at hv

end

end Pair

/-! ### the chain -/

theorem Refines.refl {g : Graph} {n : Nat} : Refines g n g n :=
  ⟨Nat.le_refl _, ⟨[], by simp, by simp⟩, fun _ _ => rfl, fun _ _ => rfl, fun _ _ => rfl,
    fun o ho l hl _ hc => Or.inr ⟨o, ho, l, hl, hc⟩, id, id, fun _ => id,
    fun _ _ _ _ h => ⟨h, fun _ _ => rfl⟩, fun _ _ env _ _ h => ⟨env, fun _ _ => rfl, h⟩, fun _ _ _ _ h => h⟩

theorem setConns_inlets {x : Obj} {i : Nat} {l : Inlet} (h : x.inlets[i]? = some l) (cs : List Conn) :
    (x.setConns i cs).inlets = x.inlets.set i { l with conns := cs } := by
  obtain ⟨hi, rfl⟩ := List.getElem?_eq_some_iff.mp h
  simp only [Obj.setConns, List.modify_eq_set_getElem?]
  rw [h]
  rfl

theorem setConns_same {x : Obj} {i : Nat} {l : Inlet} (h : x.inlets[i]? = some l) : x.setConns i l.conns = x := by
  have h1 := setConns_inlets h l.conns
  obtain ⟨hi, rfl⟩ := List.getElem?_eq_some_iff.mp h
  have : x.inlets.set i { x.inlets[i] with conns := x.inlets[i].conns } = x.inlets := List.set_getElem_self hi
  rw [this] at h1
  cases x
  simp only [Obj.setConns] at h1 ⊢
  rw [h1]

theorem setObj_self (g : Graph) (o : Nat) : g.setObj o (g.obj o) = g := by
  cases g
  simp only [Graph.setObj, Graph.mk.injEq, true_and]
  funext p
  split
  · subst_vars; rfl
  · rfl

/-- one more `__add~f` -/
theorem chain_pair (g : Graph) (n o i : Nat) (x : Obj) (lx : Inlet) (hx : x.inlets[i]? = some lx) (a b : Conn) (rest A B : List Conn)
    (hfresh : ∀ p ∈ g.ids, p < n) (ho : o ∈ g.ids) (ha : a.isSignal = true) (hb : b.isSignal = true)
    (hA : A.Perm (a :: b :: rest)) (hB : B.Perm (⟨n, 0, true⟩ :: rest)) :
    Refines (g.setObj o (x.setConns i A)) n ((g.addObj n (addObjF a b)).setObj o (x.setConns i B)) (n + 1) := by
  have on : n ≠ o := fun e => Nat.lt_irrefl _ (e ▸ hfresh o ho)
  have hi := (List.getElem?_eq_some_iff.mp hx).1
  have hA' := setConns_inlets hx A
  have hB' := setConns_inlets hx B
  have P : Pair (g.setObj o (x.setConns i A)) ((g.addObj n (addObjF a b)).setObj o (x.setConns i B)) n o i a b
      { lx with conns := A } { lx with conns := B } rest := by
    refine ⟨rfl, hfresh, ho, ?_, hA, ha, hb, ?_, ?_, rfl, hB, fun p h1 h2 => ?_⟩
    · simp [Graph.setObj, hA', hi]
    · simp [Graph.setObj, Graph.addObj, on]
    · simp only [Graph.setObj, if_true]
      have e : x.setConns i B = ⟨(x.setConns i B).inlets, x.outlets, x.signal⟩ := rfl
      rw [e, hA', hB', List.set_set]
      rfl
    · simp [Graph.setObj, Graph.addObj, h1, h2]
  exact P.refines

theorem chain_refines (cs : List Conn) : ∀ (g : Graph) (n : Nat) (c d : Conn) (o i : Nat) (x : Obj) (lx : Inlet),
    x.inlets[i]? = some lx → ∀ (ns A B : List Conn), (∀ p ∈ g.ids, p < n) → o ∈ g.ids → (∀ y ∈ c :: d :: cs, y.isSignal = true) →
    A.Perm (c :: d :: cs ++ ns) → B.Perm ((cascadeChain g n c (d :: cs)).2.2 :: ns) →
    Refines (g.setObj o (x.setConns i A)) n
      ((cascadeChain g n c (d :: cs)).1.setObj o (x.setConns i B)) (cascadeChain g n c (d :: cs)).2.1 := by
  induction cs with
  | nil =>
    intro g n c d o i x lx hx ns A B hfresh ho hs hA hB
    simp only [cascadeChain] at hB ⊢
    exact chain_pair g n o i x lx hx c d ns A B hfresh ho (hs c (by simp)) (hs d (by simp)) hA hB
  | cons e cs ih =>
    intro g n c d o i x lx hx ns A B hfresh ho hs hA hB
    rw [cascadeChain] at hB ⊢
    refine Refines.trans (chain_pair g n o i x lx hx c d (e :: cs ++ ns) A (⟨n, 0, true⟩ :: e :: cs ++ ns) hfresh ho (hs c (by simp))
      (hs d (by simp)) hA (List.Perm.refl _)) ?_
    refine ih (g.addObj n (addObjF c d)) (n + 1) ⟨n, 0, true⟩ e o i x lx hx ns _ B ?_ ?_ ?_ (List.Perm.refl _) hB
    · intro p hp
      simp [Graph.addObj] at hp
      rcases hp with hp | rfl
      · have := hfresh p hp; omega
      · omega
    · simp [Graph.addObj, ho]
    · intro y hy
      rcases List.mem_cons.mp hy with rfl | hy
      · rfl
      · exact hs y (by simp at hy ⊢; tauto)

theorem chain_objs (cs : List Conn) : ∀ (g : Graph) (n : Nat) (c : Conn),
    (∀ p, p < n → (cascadeChain g n c cs).1.obj p = g.obj p) ∧
    n ≤ (cascadeChain g n c cs).2.1 ∧
    (∀ p, n ≤ p → p < (cascadeChain g n c cs).2.1 → ∃ a b, (cascadeChain g n c cs).1.obj p = addObjF a b) ∧
    (c.isSignal = true → (cascadeChain g n c cs).2.2.isSignal = true) := by
  induction cs with
  | nil => exact fun g n c => ⟨fun _ _ => rfl, Nat.le_refl _, fun p h1 h2 => absurd h2 (by simp [cascadeChain]; omega), id⟩
  | cons d cs ih =>
    intro g n c
    rw [cascadeChain]
    obtain ⟨h1, h2, h3, h4⟩ := ih (g.addObj n (addObjF c d)) (n + 1) ⟨n, 0, true⟩
    refine ⟨fun p hp => ?_, by omega, fun p hp hp' => ?_, fun _ => h4 rfl⟩
    · rw [h1 p (by omega)]
      simp [Graph.addObj, Nat.ne_of_lt hp]
    · by_cases e : p = n
      · subst e
        exact ⟨c, d, by rw [h1 p (by omega)]; simp [Graph.addObj]⟩
      · exact h3 p (by omega) hp'

theorem chain_ids (cs : List Conn) : ∀ (g : Graph) (n : Nat) (c : Conn) (p : Nat), n ≤ p → p < (cascadeChain g n c cs).2.1 →
    p ∈ (cascadeChain g n c cs).1.ids := by
  have mono : ∀ (cs : List Conn) (g : Graph) (n : Nat) (c : Conn), ∀ p ∈ g.ids, p ∈ (cascadeChain g n c cs).1.ids := by
    intro cs
    induction cs with
    | nil => exact fun _ _ _ _ h => h
    | cons d cs ih => exact fun g n c p h => ih _ _ _ p (by simp [Graph.addObj, h])
  induction cs with
  | nil => intro g n c p h1 h2; simp [cascadeChain] at h2; omega
  | cons d cs ih =>
    intro g n c p h1 h2
    rw [cascadeChain] at h2 ⊢
    by_cases e : p = n
    · exact mono _ _ _ _ p (by simp [Graph.addObj, e])
    · exact ih _ _ _ p (by omega) h2

/-- at most one signal at inlet `i` of `o` -/
def Few (g : Graph) (o i : Nat) : Prop := ∀ l, (g.obj o).inlets[i]? = some l → (l.conns.filter (·.isSignal)).length ≤ 1

/-- what the loops maintain -/
structure Casc (g : Graph) (n : Nat) (g' : Graph) (n' : Nat) : Prop where
  ref : Refines g n g' n'
  keep : ∀ p ∈ g.ids, ∀ j, Few g p j → Few g' p j
  new : ∀ p, n ≤ p → p < n' → ∀ j, Few g' p j

theorem Casc.trans {g g1 g2 : Graph} {n n1 n2 : Nat} (h1 : Casc g n g1 n1) (h2 : Casc g1 n1 g2 n2)
    (hm : ∀ p, n ≤ p → p < n1 → p ∈ g1.ids) : Casc g n g2 n2 := by
  have hsub : ∀ o ∈ g.ids, o ∈ g1.ids := by
    obtain ⟨new, e, -⟩ := h1.ref.ids
    intro o ho
    rw [e]; simp [ho]
  refine ⟨h1.ref.trans h2.ref, fun p hp j hf => h2.keep p (hsub p hp) j (h1.keep p hp j hf), fun p h3 h4 j => ?_⟩
  by_cases e : p < n1
  · exact h2.keep p (hm p h3 e) j (h1.new p h3 e j)
  · exact h2.new p (by omega) h4 j

theorem few_addObjF {g : Graph} {o : Nat} {a b : Conn} (h : g.obj o = addObjF a b) (j : Nat) : Few g o j := by
  intro l hl
  rw [h, addObjF] at hl
  match j, hl with
  | 0, hl => simp at hl; subst hl; exact (List.length_filter_le _ _).trans (by simp)
  | 1, hl => simp at hl; subst hl; exact (List.length_filter_le _ _).trans (by simp)
  | _ + 2, hl => simp at hl

theorem cascadeInlet_ok (g : Graph) (n o i : Nat) (hfresh : ∀ p ∈ g.ids, p < n) (ho : o ∈ g.ids) :
    Casc g n (cascadeInlet g n o i).1 (cascadeInlet g n o i).2 ∧ Few (cascadeInlet g n o i).1 o i ∧
    (∀ p, n ≤ p → p < (cascadeInlet g n o i).2 → p ∈ (cascadeInlet g n o i).1.ids) := by
  have triv : Casc g n g n := ⟨Refines.refl, fun _ _ _ h => h, fun p h1 h2 => absurd h2 (by omega)⟩
  unfold cascadeInlet
  cases hl : (g.obj o).inlets[i]? with
  | none => exact ⟨triv, fun l h => by rw [hl] at h; simp at h, fun p h1 h2 => absurd h2 (by simp; omega)⟩
  | some l =>
    simp only
    generalize hs : l.conns.filter (·.isSignal) = sigs
    match sigs, hs with
    | [], hs => exact ⟨triv, fun l' h => by rw [hl] at h; cases h; simp [hs], fun p h1 h2 => absurd h2 (by simp; omega)⟩
    | [c], hs => exact ⟨triv, fun l' h => by rw [hl] at h; cases h; simp [hs], fun p h1 h2 => absurd h2 (by simp; omega)⟩
    | c :: d :: cs, hs =>
      simp only
      obtain ⟨h1, h2, h3, h4⟩ := chain_objs (d :: cs) g n c
      have hsig : ∀ y ∈ c :: d :: cs, y.isSignal = true := by
        intro y hy
        rw [← hs] at hy
        simpa using (List.mem_filter.mp hy).2
      have hA : l.conns.Perm (c :: d :: cs ++ l.conns.filter (!·.isSignal)) := by
        rw [← hs]
        exact (List.filter_append_perm _ _).symm
      have hB : (l.conns.filter (!·.isSignal) ++ [(cascadeChain g n c (d :: cs)).2.2]).Perm
          ((cascadeChain g n c (d :: cs)).2.2 :: l.conns.filter (!·.isSignal)) := List.perm_append_singleton _ _
      have ref := chain_refines cs g n c d o i (g.obj o) l hl _ l.conns _ hfresh ho hsig hA hB
      rw [setConns_same hl, setObj_self] at ref
      have hon : o < n := hfresh o ho
      have hfew : Few ((cascadeChain g n c (d :: cs)).1.setObj o
          ((g.obj o).setConns i (l.conns.filter (!·.isSignal) ++ [(cascadeChain g n c (d :: cs)).2.2]))) o i := by
        intro l' hl'
        simp only [Graph.setObj, if_true] at hl'
        rw [setConns_inlets hl] at hl'
        rw [List.getElem?_set_self (List.getElem?_eq_some_iff.mp hl).1] at hl'
        cases hl'
        simp only [List.filter_append]
        have : (l.conns.filter (!·.isSignal)).filter (·.isSignal) = [] := by
          rw [List.filter_filter]
          refine List.filter_eq_nil_iff.mpr fun a _ => ?_
          cases a.isSignal <;> simp
        rw [this]
        exact (List.length_filter_le _ _).trans (by simp)
      refine ⟨⟨ref, fun p hp j hf => ?_, fun p hp hp' j => ?_⟩, hfew, fun p hp hp' => ?_⟩
      · by_cases e : p = o
        · subst e
          by_cases ej : j = i
          · subst ej; exact hfew
          · intro l' hl'
            simp only [Graph.setObj, if_true] at hl'
            rw [setConns_inlets hl, List.getElem?_set_ne (Ne.symm ej)] at hl'
            exact hf l' hl'
        · intro l' hl'
          simp only [Graph.setObj, if_neg e] at hl'
          rw [h1 p (hfresh p hp)] at hl'
          exact hf l' hl'
      · obtain ⟨a, b, hab⟩ := h3 p hp hp'
        refine few_addObjF (a := a) (b := b) ?_ j
        simp only [Graph.setObj]
        rw [if_neg (by omega), hab]
      · exact chain_ids (d :: cs) g n c p hp hp'

theorem cascadeObj_ok (is : List Nat) : ∀ (g : Graph) (n o : Nat), (∀ p ∈ g.ids, p < n) → o ∈ g.ids →
    Casc g n (cascadeObj g n o is).1 (cascadeObj g n o is).2 ∧ (∀ i ∈ is, Few (cascadeObj g n o is).1 o i) ∧
    (∀ p, n ≤ p → p < (cascadeObj g n o is).2 → p ∈ (cascadeObj g n o is).1.ids) := by
  induction is with
  | nil => exact fun g n o _ _ => ⟨⟨Refines.refl, fun _ _ _ h => h, fun p h1 h2 => absurd h2 (by simp [cascadeObj]; omega)⟩, by simp,
      fun p h1 h2 => absurd h2 (by simp [cascadeObj]; omega)⟩
  | cons i is ih =>
    intro g n o hfresh ho
    simp only [cascadeObj]
    obtain ⟨h1, h2, h3⟩ := cascadeInlet_ok g n o i hfresh ho
    generalize cascadeInlet g n o i = r at h1 h2 h3 ⊢
    have hsub : ∀ o ∈ g.ids, o ∈ r.1.ids := by
      obtain ⟨new, e, -⟩ := h1.ref.ids
      intro o ho
      rw [e]; simp [ho]
    obtain ⟨k1, k2, k3⟩ := ih r.1 r.2 o (h1.ref.lt hfresh) (hsub o ho)
    refine ⟨h1.trans k1 h3, fun j hj => ?_, fun p hp hp' => ?_⟩
    · rcases List.mem_cons.mp hj with rfl | hj
      · exact k1.keep o (hsub o ho) j h2
      · exact k2 j hj
    · by_cases e : p < r.2
      · obtain ⟨new, e', -⟩ := k1.ref.ids
        rw [e']
        exact List.mem_append_left _ (h3 p hp e)
      · exact k3 p (by omega) hp'

theorem cascadeObjs_ok (os : List Nat) : ∀ (g : Graph) (n : Nat), (∀ p ∈ g.ids, p < n) → (∀ o ∈ os, o ∈ g.ids) →
    Casc g n (cascadeObjs g n os).1 (cascadeObjs g n os).2 ∧ (∀ o ∈ os, ∀ i, Few (cascadeObjs g n os).1 o i) ∧
    (∀ p, n ≤ p → p < (cascadeObjs g n os).2 → p ∈ (cascadeObjs g n os).1.ids) := by
  induction os with
  | nil => exact fun g n _ _ => ⟨⟨Refines.refl, fun _ _ _ h => h, fun p h1 h2 => absurd h2 (by simp [cascadeObjs]; omega)⟩, by simp,
      fun p h1 h2 => absurd h2 (by simp [cascadeObjs]; omega)⟩
  | cons o os ih =>
    intro g n hfresh hos
    simp only [cascadeObjs]
    obtain ⟨h1, h2, h3⟩ := cascadeObj_ok (List.range (g.obj o).inlets.length) g n o hfresh (hos o (by simp))
    generalize cascadeObj g n o (List.range (g.obj o).inlets.length) = r at h1 h2 h3 ⊢
    have hsub : ∀ o ∈ g.ids, o ∈ r.1.ids := by
      obtain ⟨new, e, -⟩ := h1.ref.ids
      intro o ho
      rw [e]; simp [ho]
    obtain ⟨k1, k2, k3⟩ := ih r.1 r.2 (h1.ref.lt hfresh) fun p hp => hsub p (hos p (by simp [hp]))
    refine ⟨h1.trans k1 h3, fun p hp i => ?_, fun p hp hp' => ?_⟩
    · rcases List.mem_cons.mp hp with rfl | hp
      · refine k1.keep p (hsub p (hos p (by simp))) i ?_
        by_cases hi : i < (g.obj p).inlets.length
        · exact h2 i (by simpa using hi)
        · intro l hl
          have := (List.getElem?_eq_some_iff.mp hl).1
          rw [h1.ref.inlets p (hos p (by simp))] at this
          omega
      · exact k2 p hp i
    · by_cases e : p < r.2
      · obtain ⟨new, e', -⟩ := k1.ref.ids
        rw [e']
        exact List.mem_append_left _ (h3 p hp e)
      · exact k3 p (by omega) hp'

/-! ### C33 -/

/-- **C33**: after the expansion every inlet has at most one signal connection; every family of signals of the old patch
(where inlets add their signals) extends to one of the new patch, and every family of the new patch is one of the old patch -/
theorem cascade_correct (g : Graph) (n : Nat) (hn : ∀ p ∈ g.ids, p < n) :
    (∀ o ∈ (g.cascade n).1.ids, ∀ l ∈ ((g.cascade n).1.obj o).inlets, (l.conns.filter (·.isSignal)).length ≤ 1) ∧
    (∀ o ∈ g.ids, o ∈ (g.cascade n).1.ids) ∧
    (∀ {α : Type} [AddCommMonoid α] (F : Nat → List α → List α) (inp : Nat → α) (env : Nat → Nat → α),
      (∀ o, n ≤ o → o < (g.cascade n).2 → ∀ x y, F o [x, y] = [x + y]) → SumFlow (g.cascade n).1 F inp env → SumFlow g F inp env) ∧
    (∀ {α : Type} [AddCommMonoid α] (F : Nat → List α → List α) (inp : Nat → α) (env : Nat → Nat → α),
      (∀ o, n ≤ o → o < (g.cascade n).2 → ∀ x y, F o [x, y] = [x + y]) → Closed g → SumFlow g F inp env →
      ∃ env', (∀ o, o < n → env' o = env o) ∧ SumFlow (g.cascade n).1 F inp env') := by
  obtain ⟨h1, h2, h3⟩ := cascadeObjs_ok g.ids g n hn fun _ h => h
  obtain ⟨new, e, hnew⟩ := h1.ref.ids
  refine ⟨fun o ho l hl => ?_, fun o ho => ?_, fun F inp env hF hf => (h1.ref.back F inp env hF hf).1, h1.ref.fwd⟩
  · obtain ⟨i, hi⟩ := List.mem_iff_getElem?.mp hl
    have ho' : o ∈ (cascadeObjs g n g.ids).1.ids := ho
    rw [e] at ho'
    rcases List.mem_append.mp ho' with h | h
    · exact h2 o h i l hi
    · exact h1.new o (hnew o h).1 (hnew o h).2.1 i l hi
  · show o ∈ (cascadeObjs g n g.ids).1.ids
    rw [e]; simp [ho]

theorem inletVal_eq {α : Type} [AddCommMonoid α] (env : Nat → Nat → α) (l : Inlet) (h : (l.conns.filter (·.isSignal)).length ≤ 1) :
    inletVal env l = inletSum env l := by
  unfold inletVal inletSum
  generalize l.conns.filter (·.isSignal) = s at h
  match s, h with
  | [], _ => simp
  | [c], _ => simp
  | c :: d :: cs, h => simp at h

/-- the output objects run -/
theorem dac_order (g : Graph) (wf : MWF g) (hc : Closed g) (c : Nat) :
    (g.signalOrder.filter fun o => dacChan (g.obj o) = some c).Perm
      (g.ids.filter fun o => (g.obj o).signal ∧ dacChan (g.obj o) = some c) := by
  obtain ⟨h1, h2, -⟩ := signal_order_correct g hc
  obtain ⟨m', hv⟩ := order_visited g hc
  refine (List.perm_ext_iff_of_nodup (h1.filter _) (wf.nodup.filter _)).mpr fun o => ?_
  simp only [List.mem_filter, decide_eq_true_eq]
  constructor
  · rintro ⟨k1, k2⟩
    exact ⟨hv.ids o (List.mem_filter.mp k1).1, (List.mem_filter.mp k1).2, k2⟩
  · rintro ⟨k1, k2, k3⟩
    refine ⟨(h2 o).mpr ⟨k2, o, k1, ?_, .refl⟩, k3⟩
    rcases wf.kinds o k1 k2 with h | ⟨conns, c', h⟩
    · rw [dacChan_zero _ h.2] at k3; simp at k3
    · rw [← isLeaf_iff, Graph.isLeaf, h]; rfl

theorem outputSum_eq {α : Type} [AddCommMonoid α] (g : Graph) (wf : MWF g) (hc : Closed g)
    (one : ∀ o ∈ g.ids, ∀ l ∈ (g.obj o).inlets, (l.conns.filter (·.isSignal)).length ≤ 1) (env : Nat → Nat → α) (c : Nat) :
    outputSum g env g.signalOrder c = patchOutput g env c := by
  unfold outputSum patchOutput
  refine (((dac_order g wf hc c).map _).sum_eq).trans ?_
  congr 1
  refine List.map_congr_left fun o ho => ?_
  congr 1
  exact List.map_congr_left fun l hl => inletVal_eq env l (one o (List.mem_filter.mp ho).1 l hl)

/-- **C31 and C33 together**: compiling a patch with any number of signals at each inlet (expansion, order, buffer assignment)
and running one block, with arbitrary contents of the temporary buffers, gives each output channel the sum of the signals that
the patch sends to it -/
theorem pipeline_correct {α : Type} [AddCommMonoid α] (g : Graph) (n : Nat) (hn : ∀ p ∈ g.ids, p < n) (wf : MWF g) (hc : Closed g)
    (hcyc : NoCycle g) (F : Nat → List α → List α) (inp : Nat → α) (env : Nat → Nat → α) (flow : SumFlow g F inp env)
    (hadd : ∀ o, n ≤ o → o < (g.cascade n).2 → ∀ x y, F o [x, y] = [x + y])
    (hdac : ∀ o ∈ g.ids, (dacChan (g.obj o)).isSome → ∀ x y, F o [x, y] = [x + y])
    (hlen : ∀ o ∈ g.ids, ∀ l, l.length = (g.obj o).inlets.length → (F o l).length = (g.obj o).outlets.length)
    (junk : Ty → Nat → α) :
    ∃ st ss, (g.cascade n).1.compile = .ok (st, ss) ∧ ss.map (·.id) = (g.cascade n).1.signalOrder ∧
      (∀ c, (exec F (Store.start inp junk) ss).1 (.output c) = patchOutput g env c) ∧
      (∀ x ∈ (exec F (Store.start inp junk) ss).2, x.1 ∈ g.ids → dacChan (g.obj x.1) = none →
        x.2 = (g.obj x.1).inlets.map (inletSum env)) := by
  obtain ⟨one, -⟩ := cascade_correct g n hn
  obtain ⟨h1, h2, h3⟩ := cascadeObjs_ok g.ids g n hn fun _ h => h
  generalize hg : g.cascade n = r at one hadd
  have hg' : cascadeObjs g n g.ids = r := hg
  rw [hg'] at h1 h2 h3
  obtain ⟨g', n'⟩ := r
  simp only at one h1 h2 h3 ⊢
  obtain ⟨env', he, hf⟩ := h1.ref.fwd F inp env hadd hc flow
  obtain ⟨new, eids, hnew⟩ := h1.ref.ids
  have wf' := h1.ref.wf wf
  have wff : WF g' := ⟨wf'.nodup, wf'.kinds, one, wf'.source, wf'.presets, wf'.count⟩
  have hsame : ∀ q ∈ g.ids, (g.obj q).inlets.map (inletSum env') = (g.obj q).inlets.map (inletSum env) := by
    intro q hq
    refine List.map_congr_left fun x hx => ?_
    unfold inletSum
    congr 1
    refine List.map_congr_left fun y hy => ?_
    rw [he y.src (hn _ (hc q hq _ ⟨x, hx, y, (List.mem_filter.mp hy).1, rfl⟩))]
  have hsums : ∀ q ∈ g.ids, (g'.obj q).inlets.map (inletSum env') = (g.obj q).inlets.map (inletSum env) := by
    intro q hq
    exact ((h1.ref.back F inp env' hadd hf).2 q hq).trans (hsame q hq)
  have hdc : ∀ q ∈ g.ids, dacChan (g'.obj q) = dacChan (g.obj q) := fun q hq => by simp [dacChan, h1.ref.outlets q hq]
  have hnewd : ∀ q ∈ new, dacChan (g'.obj q) = none := fun q hq => by simp [dacChan, (hnew q hq).2.2.2.1]
  have hval : ∀ q ∈ g'.ids, (g'.obj q).inlets.map (inletVal env') = (g'.obj q).inlets.map (inletSum env') :=
    fun q hq => List.map_congr_left fun l hl => inletVal_eq env' l (one q hq l hl)
  have flow' : Flow g' F inp env' :=
    ⟨hf.ext, fun o ho hs hd k v hv => hf.obj o ho hs hd k v (by rw [← hval o ho]; exact hv)⟩
  obtain ⟨st, ss, e1, e2, e3, e4, -, -⟩ := compile_correct g' wff F inp env' flow'
    (fun o ho hd => by
      rw [eids] at ho
      rcases List.mem_append.mp ho with h | h
      · exact hdac o h (by rw [← hdc o h]; exact hd)
      · rw [hnewd o h] at hd; simp at hd)
    (fun o ho l hl => by
      rw [eids] at ho
      rcases List.mem_append.mp ho with h | h
      · rw [h1.ref.outlets o h]
        exact hlen o h l (by rw [hl, h1.ref.inlets o h])
      · rw [(hnew o h).2.2.1] at hl
        rw [(hnew o h).2.2.2.1]
        match l, hl with
        | [x, y], _ => rw [hadd o (hnew o h).1 (hnew o h).2.1]; rfl)
    (h1.ref.closed hc) (h1.ref.nocycle hc hcyc) junk
  refine ⟨st, ss, e1, e2, fun c => ?_, fun x hx hxg hd => ?_⟩
  · rw [e4, outputSum_eq g' wf' (h1.ref.closed hc) one]
    unfold patchOutput
    have hfil : (g'.ids.filter fun o => (g'.obj o).signal ∧ dacChan (g'.obj o) = some c) =
        g.ids.filter fun o => (g.obj o).signal ∧ dacChan (g.obj o) = some c := by
      rw [eids, List.filter_append]
      have : (new.filter fun o => (g'.obj o).signal ∧ dacChan (g'.obj o) = some c) = [] := by
        refine List.filter_eq_nil_iff.mpr fun o ho => ?_
        simp [hnewd o ho]
      rw [this, List.append_nil]
      refine List.filter_congr fun o ho => ?_
      rw [h1.ref.signal o ho, hdc o ho]
    rw [hfil]
    congr 1
    refine List.map_congr_left fun o ho => ?_
    rw [hsums o (List.mem_filter.mp ho).1]
  · have hxg' : x.1 ∈ g'.ids := by rw [eids]; simp [hxg]
    rw [e3 x hx (by rw [hdc x.1 hxg]; exact hd), hval x.1 hxg', hsums x.1 hxg]

/-! ### the hypotheses can be met -/

/-- `[osc~]`, `[adc~ 1]`, `[noise~]` (0, 1, 2), all connected to `[dac~ 1]` (3), and a control connection from 4 to it -/
def mix : Graph where
  ids := [3, 0, 1, 2, 4]
  obj
    | 0 => ⟨[], [⟨some .f, 1, .zero⟩], true⟩
    | 1 => ⟨[], [⟨some .f, 1, .input 0⟩], false⟩
    | 2 => ⟨[], [⟨some .f, 1, .zero⟩], true⟩
    | 3 => dacObj [⟨0, 0, true⟩, ⟨4, 0, false⟩, ⟨1, 0, true⟩, ⟨2, 0, true⟩] 0
    | 4 => ⟨[], [⟨none, 1, .zero⟩], false⟩
    | _ => ⟨[], [], false⟩

theorem mix_conn {o : Nat} {l : Inlet} (hl : l ∈ (mix.obj o).inlets) {c : Conn} (hc : c ∈ l.conns) :
    o = 3 ∧ (c = ⟨0, 0, true⟩ ∨ c = ⟨4, 0, false⟩ ∨ c = ⟨1, 0, true⟩ ∨ c = ⟨2, 0, true⟩) := by
  match o, hl with
  | 0, hl => simp [mix] at hl
  | 1, hl => simp [mix] at hl
  | 2, hl => simp [mix] at hl
  | 3, hl => simp [mix, dacObj] at hl; rcases hl with rfl | rfl <;> simp_all
  | 4, hl => simp [mix] at hl
  | n + 5, hl => simp [mix] at hl

theorem mix_feeds {p o : Nat} (h : Feeds mix p o) : o = 3 ∧ p ∈ [0, 4, 1, 2] := by
  obtain ⟨l, hl, c, hc, rfl⟩ := h
  obtain ⟨rfl, rfl | rfl | rfl | rfl⟩ := mix_conn hl hc <;> simp

theorem mix_wf : MWF mix := by
  refine ⟨by decide, ?_, ?_, ?_, ?_⟩
  · intro o ho _
    simp [mix] at ho
    rcases ho with rfl | rfl | rfl | rfl | rfl
    · exact Or.inr ⟨_, 0, rfl⟩
    · exact Or.inl (by decide)
    · contradiction
    · exact Or.inl (by decide)
    · exact Or.inl (by decide)
  · intro o ho l hl c hc hs
    obtain ⟨rfl, rfl | rfl | rfl | rfl⟩ := mix_conn hl hc
    · exact ⟨by decide, _, rfl, Or.inl (by decide)⟩
    · simp at hs
    · exact ⟨by decide, _, rfl, Or.inr ⟨rfl, 0, rfl⟩⟩
    · exact ⟨by decide, _, rfl, Or.inl (by decide)⟩
  · intro p k out h t i
    have := List.mem_of_getElem? h
    match p, this with
    | 0, h => simp [mix] at h; subst h; simp
    | 1, h => simp [mix] at h; subst h; simp
    | 2, h => simp [mix] at h; subst h; simp
    | 3, h => simp [mix, dacObj] at h; subst h; simp
    | 4, h => simp [mix] at h; subst h; simp
    | n + 5, h => simp [mix] at h
  · intro p hp k out h
    simp [mix] at hp
    rcases hp with rfl | rfl | rfl | rfl | rfl <;> (cases k with
      | zero => simp [mix, dacObj] at h; subst h; decide
      | succ k => simp [mix, dacObj] at h)

theorem mix_closed : Closed mix := by
  intro o _ p h
  obtain ⟨-, h'⟩ := mix_feeds h
  rcases (by simpa using h' : p = 0 ∨ p = 4 ∨ p = 1 ∨ p = 2) with rfl | rfl | rfl | rfl <;> decide

theorem mix_nocycle : NoCycle mix := by
  have lt : ∀ a b, TransGen (Feeds mix) a b → a ≠ 3 := by
    intro a b h
    induction h using TransGen.head_induction_on with
    | single h => obtain ⟨-, h⟩ := mix_feeds h; rintro rfl; simp at h
    | head h _ _ => obtain ⟨-, h⟩ := mix_feeds h; rintro rfl; simp at h
  intro o ho pk hpk hr
  obtain ⟨l, hl, hm⟩ := List.mem_flatMap.mp hpk
  obtain ⟨c, hcm, rfl⟩ := List.mem_map.mp hm
  have hf : Feeds mix c.src o := ⟨l, hl, c, (List.mem_filter.mp hcm).1, rfl⟩
  obtain ⟨rfl, -⟩ := mix_feeds hf
  rcases reflTransGen_iff_eq_or_transGen.mp hr with h | h
  · rw [show c.src = 3 from h] at hf
    exact lt _ _ (.single hf) rfl
  · exact lt _ _ h rfl

/-- the objects of `mix`: constants 3 and 5, additions -/
def mixF : Nat → List Int → List Int
  | 0, _ => [3]
  | 1, _ => [0]
  | 2, _ => [5]
  | 4, _ => [0]
  | _, [x, y] => [x + y]
  | _, _ => [0]

/-- with 7 at the input, 15 arrives at the output -/
example : ∃ st ss, (mix.cascade 10).1.compile = .ok (st, ss) ∧
    (exec mixF (Store.start (fun _ => 7) fun _ _ => 99) ss).1 (.output 0) = 15 := by
  let env : Nat → Nat → Int := fun o _ => if o = 0 then 3 else if o = 1 then 7 else if o = 2 then 5 else 0
  have flow : SumFlow mix mixF (fun _ => 7) env := by
    refine ⟨fun p hp k out ch h h' => ?_, fun o ho hs hd k v h => ?_⟩
    · simp [mix] at hp
      rcases hp with rfl | rfl | rfl | rfl | rfl <;> (cases k with
        | zero => simp [mix, dacObj] at h; subst h; first | (simp at h'; done) | rfl
        | succ k => simp [mix, dacObj] at h)
    · simp [mix] at ho
      rcases ho with rfl | rfl | rfl | rfl | rfl
      · exact absurd hd (by decide)
      · cases k with
        | zero => simp [mix, mixF] at h; rw [← h]; rfl
        | succ k => simp [mix, mixF] at h
      · exact absurd hs (by decide)
      · cases k with
        | zero => simp [mix, mixF] at h; rw [← h]; rfl
        | succ k => simp [mix, mixF] at h
      · exact absurd hs (by decide)
  obtain ⟨st, ss, h1, -, h3, -⟩ := pipeline_correct mix 10 (by decide) mix_wf mix_closed mix_nocycle mixF (fun _ => 7) env flow
    (fun o ho _ x y => by
      match o, ho with
      | n + 10, _ => rfl)
    (fun o ho h x y => by
      simp [mix] at ho
      rcases ho with rfl | rfl | rfl | rfl | rfl
      · rfl
      all_goals exact absurd h (by decide))
    (fun o ho l hl => by
      simp [mix] at ho
      rcases ho with rfl | rfl | rfl | rfl | rfl
      · match l, hl with
        | [x, y], _ => rfl
      all_goals rfl)
    fun _ _ => 99
  exact ⟨st, ss, h1, (h3 0).trans (by decide)⟩

end Verif.Signal
