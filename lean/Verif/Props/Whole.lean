import Verif.Whole
import Verif.Props.ReduceAll
import Verif.Props.VarExec
import Verif.Props.SignalTreePasses
import Mathlib.Data.Finset.Lattice.Fold
/-!
# C87: the signals of a patch are what the generated program plays

Specification.  The signals of a patch are the functions `v` (object, outlet, sample) that satisfy the equations of its objects
(`Reduce.Solves`, see Verif.Props.Reduce): a signal inlet gets the sum of what is connected to it, operators compute, other objects
behave as `W.beh` says, given all signals and messages at their inlets up to the end of the block (`Causal`).
-/
namespace Verif.Whole
open Verif Relation

variable {α μ : Type}

/-! ### specification -/

/-- the connections of the other objects fit their shapes: signals leave signal outlets of objects that process signals, or
channels of `[adc~]` -/
def typing (sh : Nat → Shape) (S : Nat → Prop) (L : Prop) : Reduce.Typing where
  here := S
  loopless := L
  src p j ty := match sh p with
    | .input _ => j = 0 ∧ ty = .f
    | .output _ => False
    | .object _ os s => os[j]? = some (if ty = .c then none else some .f) ∧ (ty ≠ .c → s = true)
  dst p i _ := match sh p with
    | .input _ => False
    | .output _ => i = 0
    | .object n _ _ => i < n

/-- an object knows nothing of later blocks -/
def Causal (W : Reduce.World α μ) (B : Nat) : Prop :=
  ∀ p (x x' : Nat → Nat → α) (m m' : Nat → Nat → List μ) j t, (∀ i t', t' / B ≤ t / B → x i t' = x' i t') →
    (∀ i t', t' / B ≤ t / B → m i t' = m' i t') → W.beh p x m j t = W.beh p x' m' j t

/-- is the object the output channel `c`? -/
def isOutput (sh : Nat → Shape) (g : Reduce.Graph α) (c p : Nat) : Bool :=
  match g.kind p, sh p with
  | .other _, .output c' => decide (c' = c)
  | _, _ => false

/-- what a patch with the signals `v` sends to the output channel `c` at sample `t` -/
def sends [AddCommMonoid α] (sh : Nat → Shape) (g : Reduce.Graph α) (v : Nat → Nat → Nat → α) (c t : Nat) : α :=
  ((g.ids.filter (isOutput sh g c)).map fun p => Reduce.inSum v (g.ins p 0) t).sum

/-- an object that may be left after `remap_send_receive` and `reduce` -/
def low : Reduce.Kind α → Bool
  | .binop .. | .unop _ | .var _ | .send _ | .receive _ => false
  | _ => true

/-! ### the reduced graph is well formed for the later passes -/

section
variable {sh : Nat → Shape} {S : Nat → Prop} {L : Prop} {g : Reduce.Graph α} {n : Nat} {M : Multiset Reduce.Conn}

/-- the inlets of an object -/
def numIns : Shape → Nat
  | .input _ => 0
  | .output _ => 1
  | .object n _ _ => n

theorem object_reads (p : Nat) (s : Shape) : Signal.readsOf (object g p s).inlets =
    (List.range (numIns s)).flatMap fun i => ((g.ins p i).filter fun c => c.ty != .c).map fun c => (c.src, c.outlet) := by
  have key : ∀ l : List Reduce.Conn, ((l.map seen).filter (·.isSignal)).map (fun c => (c.src, c.outlet)) =
      (l.filter fun c => c.ty != .c).map fun c => (c.src, c.outlet) := by
    intro l
    rw [List.filter_map, List.map_map]
    rfl
  cases s with
  | input => rfl
  | output => simp [object, Signal.dacObj, Signal.readsOf, numIns, key, List.range_succ]
  | object n os s => simp [object, Signal.readsOf, numIns, key, List.flatMap_map]

/-- all connections into a list of different inlets are some of all connections -/
theorem ins_le (w : Reduce.Wired g M) : ∀ ps : List (Nat × Nat), ps.Nodup →
    (↑(ps.flatMap fun q => g.ins q.1 q.2) : Multiset Reduce.Conn) = M.filter fun c => (c.dst, c.inlet) ∈ ps
  | [], _ => by simp
  | q :: ps, h => by
    rw [List.nodup_cons] at h
    rw [List.flatMap_cons, ← Multiset.coe_add, ins_le w ps h.2, w.ins]
    have := Multiset.filter_add_filter (fun c : Reduce.Conn => c.into q.1 q.2) (fun c => (c.dst, c.inlet) ∈ ps) M
    rw [this]
    have h2 : Multiset.filter (fun c : Reduce.Conn => c.into q.1 q.2 ∧ (c.dst, c.inlet) ∈ ps) M = 0 := by
      rw [Multiset.filter_eq_nil]
      rintro c - ⟨⟨h3, h4⟩, h5⟩
      rw [h3, h4] at h5
      exact h.1 h5
    rw [h2, add_zero]
    refine Multiset.filter_congr fun c _ => ?_
    rw [List.mem_cons]
    exact or_congr ⟨fun h => by obtain ⟨h1, h2⟩ := h; rw [h1, h2], fun h => by rw [← h]; exact ⟨rfl, rfl⟩⟩ Iff.rfl

theorem reads_count (w : Reduce.Wired g M) (ids : List Nat) (hn : ids.Nodup) (s : Nat → Nat) (p k : Nat) :
    (ids.flatMap fun o => (List.range (s o)).flatMap fun i =>
      ((g.ins o i).filter fun c => c.ty != .c).map fun c => (c.src, c.outlet)).count (p, k) ≤ (g.outs p k).length := by
  let ps : List (Nat × Nat) := ids.flatMap fun o => (List.range (s o)).map fun i => (o, i)
  have hps : ps.Nodup := by
    refine List.nodup_flatMap.2 ⟨fun o _ => List.nodup_range.map fun i j h => by simpa using h, ?_⟩
    refine hn.imp fun {a b} hab => ?_
    intro x h1 h2
    obtain ⟨i, -, rfl⟩ := List.mem_map.1 h1
    obtain ⟨j, -, h⟩ := List.mem_map.1 h2
    exact hab (by have := congrArg Prod.fst h; exact this.symm)
  have e : (ids.flatMap fun o => (List.range (s o)).flatMap fun i =>
      ((g.ins o i).filter fun c => c.ty != .c).map fun c => (c.src, c.outlet)) =
      ((ps.flatMap fun q => g.ins q.1 q.2).filter fun c => c.ty != .c).map fun c => (c.src, c.outlet) := by
    simp only [ps, List.flatMap_assoc, List.flatMap_map, List.filter_flatMap, List.map_flatMap]
  rw [e, List.count_eq_countP, List.countP_map, List.countP_filter]
  have h1 := ins_le w ps hps
  have h2 : (↑(ps.flatMap fun q => g.ins q.1 q.2) : Multiset Reduce.Conn) ≤ M := by rw [h1]; exact Multiset.filter_le _ _
  refine le_trans (List.countP_mono_left (q := fun c => decide (c.from p k)) fun c _ h => ?_) ?_
  · simp only [Function.comp, Bool.and_eq_true, beq_iff_eq, Prod.mk.injEq] at h
    exact decide_eq_true ⟨h.1.1, h.1.2⟩
  · rw [← Multiset.coe_countP (fun c : Reduce.Conn => c.from p k)]
    refine le_trans (Multiset.countP_le_of_le _ h2) ?_
    rw [Multiset.countP_eq_card_filter, ← w.outs, Multiset.coe_card]

/-- a connection from an object comes from one of its outlets -/
theorem src_ok [DecidableEq α] [Zero α] (h : Reduce.ReadyT (some (typing sh S L)) g n M) (hl : ∀ p ∈ g.ids, low (g.kind p))
    {c : Reduce.Conn} (hc : c ∈ M) (hs : c.ty ≠ .c) : ∃ out, (object g c.src (kindShape (sh c.src) (g.kind c.src))).outlets[c.outlet]? = some out ∧
      (((object g c.src (kindShape (sh c.src) (g.kind c.src))).signal = true ∧ out.ty ≠ none ∧ out.preset = .zero) ∨
       ((object g c.src (kindShape (sh c.src) (g.kind c.src))).signal = false ∧ ∃ ch, out.preset = .input ch)) := by
  have t := (h.typed _ rfl).1 c hc
  have hl := hl _ (h.ends c hc).1
  obtain ⟨t, -⟩ := t
  have hf : c.ty = .f := by
    cases e : c.ty with
    | c => exact absurd e hs
    | f => rfl
    | i => exact absurd e (h.floats c hc)
  cases hk : g.kind c.src <;> rw [hk] at t hl <;> simp only [Reduce.Kind.src, low, typing] at t hl <;>
    simp only [hf, reduceCtorEq, and_false, if_false, Bool.false_eq_true, ne_eq, not_false_eq_true, true_implies] at t hl
  case irBin => exact ⟨_, by simp [kindShape, object, t.1]; rfl, .inl ⟨rfl, by simp, rfl⟩⟩
  case irUn => exact ⟨_, by simp [kindShape, object, t.1]; rfl, .inl ⟨rfl, by simp, rfl⟩⟩
  case varK => exact ⟨_, by simp [kindShape, object, t.1]; rfl, .inl ⟨rfl, by simp, rfl⟩⟩
  case varRead => exact ⟨_, by simp [kindShape, object, t.1]; rfl, .inl ⟨rfl, by simp, rfl⟩⟩
  case other =>
    simp only [kindShape]
    cases hsh : sh c.src with
    | input ch =>
      rw [hsh] at t
      exact ⟨_, by simp [object, t]; rfl, .inr ⟨rfl, ch, rfl⟩⟩
    | output ch => rw [hsh] at t; exact t.elim
    | object m os s =>
      rw [hsh] at t
      obtain ⟨t1, t2⟩ := t
      refine ⟨_, by simp [object, List.getElem?_mapIdx, t1]; rfl, .inl ⟨t2, by simp, rfl⟩⟩

theorem feeds_conn (w : Reduce.Wired g M) {o : Nat} {l : Signal.Inlet} (hl : l ∈ ((graph sh g).obj o).inlets) {d : Signal.Conn}
    (hd : d ∈ l.conns) : ∃ c ∈ M, c.dst = o ∧ d = seen c := by
  have key : ∀ i, d ∈ (g.ins o i).map seen → ∃ c ∈ M, c.dst = o ∧ d = seen c := by
    intro i h
    obtain ⟨c, hc, rfl⟩ := List.mem_map.1 h
    obtain ⟨h1, h2, -⟩ := w.mem_ins.1 hc
    exact ⟨c, h1, h2, rfl⟩
  simp only [graph] at hl
  cases hs : kindShape (sh o) (g.kind o) with
  | input ch => rw [hs] at hl; simp [object] at hl
  | output ch =>
    rw [hs] at hl
    simp only [object, Signal.dacObj, List.mem_cons, List.not_mem_nil, or_false] at hl
    rcases hl with rfl | rfl
    · exact key 0 hd
    · simp at hd
  | object m os s =>
    rw [hs] at hl
    obtain ⟨i, -, rfl⟩ := List.mem_map.1 hl
    exact key i hd

theorem kinds_arith {p : Nat} (h : Signal.Arith (kinds sh g p)) :
    (∃ name, g.kind p = .irBin name) ∨ ∃ x ch, g.kind p = .other x ∧ sh p = .output ch := by
  unfold kinds at h
  split at h
  · exact .inl ⟨_, ‹_›⟩
  · split at h
    · exact .inr ⟨_, _, ‹_›, ‹_›⟩
    · simp [Signal.Arith] at h
  · simp [Signal.Arith] at h

theorem patch_wf [DecidableEq α] [Zero α] (h : Reduce.ReadyT (some (typing sh S L)) g n M) (hl : ∀ p ∈ g.ids, low (g.kind p)) :
    Signal.PatchWF (graph sh g) (kinds sh g) := by
  obtain ⟨rk, hrk⟩ := h.rank
  have hfeed : ∀ p o, Signal.Feeds (graph sh g) p o → ∃ c ∈ M, c.src = p ∧ c.dst = o := by
    rintro p o ⟨l, hl, d, hd, rfl⟩
    obtain ⟨c, h1, h2, rfl⟩ := feeds_conn h.wired hl hd
    exact ⟨c, h1, rfl, h2⟩
  refine ⟨⟨h.nodup, ?_, ?_, ?_, ?_⟩, ?_, ?_, ?_, ?_⟩
  · intro o _ hs
    simp only [graph] at hs ⊢
    cases he : kindShape (sh o) (g.kind o) with
    | input ch => rw [he] at hs; simp [object] at hs
    | output ch => exact .inr ⟨_, ch, rfl⟩
    | object m os s =>
      refine .inl ⟨fun l hl => ?_, fun l hl => ?_⟩
      · obtain ⟨i, -, rfl⟩ := List.mem_map.1 hl
        rfl
      · obtain ⟨i, hi, rfl⟩ := List.mem_mapIdx.1 hl
        rfl
  · intro o _ l hl' d hd hs
    obtain ⟨c, h1, h2, rfl⟩ := feeds_conn h.wired hl' hd
    exact ⟨(h.ends c h1).1, src_ok h hl h1 (by simpa [seen] using hs)⟩
  · intro p k out hout t i
    simp only [graph] at hout
    cases he : kindShape (sh p) (g.kind p) with
    | input ch =>
      rw [he] at hout
      have := List.mem_of_getElem? hout
      simp only [object, List.mem_singleton] at this
      rw [this]; simp
    | output ch =>
      rw [he] at hout
      have := List.mem_of_getElem? hout
      simp only [object, Signal.dacObj, List.mem_singleton] at this
      rw [this]; simp
    | object m os s =>
      rw [he] at hout
      obtain ⟨i, hi, rfl⟩ := List.mem_mapIdx.1 (List.mem_of_getElem? hout)
      simp
  · intro p _ k out hout
    have hreads : ∀ o, (graph sh g).reads o = (List.range (numIns (kindShape (sh o) (g.kind o)))).flatMap fun i =>
        ((g.ins o i).filter fun c => c.ty != .c).map fun c => (c.src, c.outlet) := fun o => object_reads o _
    have e : (graph sh g).ids.flatMap (graph sh g).reads = g.ids.flatMap fun o => (List.range (numIns (kindShape (sh o) (g.kind o)))).flatMap fun i =>
        ((g.ins o i).filter fun c => c.ty != .c).map fun c => (c.src, c.outlet) := List.flatMap_congr fun o _ => hreads o
    have hle := reads_count h.wired g.ids h.nodup (fun o => numIns (kindShape (sh o) (g.kind o))) p k
    rw [e]
    refine hle.trans ?_
    simp only [graph] at hout
    cases he : kindShape (sh p) (g.kind p) with
    | input ch =>
      rw [he] at hout
      cases k with
      | zero => simp only [object, List.getElem?_cons_zero, Option.some.injEq] at hout; rw [← hout]
      | succ k => simp [object] at hout
    | output ch =>
      have hko : ∃ x, g.kind p = .other x ∧ sh p = .output ch ∨ low (g.kind p) = false := by
        cases hk : g.kind p <;> rw [hk] at he <;> simp [kindShape] at he <;> simp [low, he]
      obtain ⟨x, ⟨hx, hs⟩ | hx⟩ := hko
      · have : g.outs p k = [] := by
          rw [List.eq_nil_iff_forall_not_mem]
          intro c hc
          obtain ⟨h1, h2, -⟩ := h.wired.mem_outs.1 hc
          have t := ((h.typed _ rfl).1 c h1).1
          rw [h2, hx] at t
          simp only [Reduce.Kind.src, typing, hs] at t
        rw [this]; simp
      · rw [hl p ‹_›] at hx; simp at hx
    | object m os s =>
      rw [he] at hout
      simp only [object, List.getElem?_mapIdx, Option.map_eq_some_iff] at hout
      obtain ⟨ty, -, rfl⟩ := hout
      exact Nat.le_refl _
  · intro o _ p hf
    obtain ⟨c, h1, rfl, -⟩ := hfeed p o hf
    exact (h.ends c h1).1
  · intro o _ pk hpk hr
    obtain ⟨l, hl', hm⟩ := List.mem_flatMap.mp hpk
    obtain ⟨d, hdm, rfl⟩ := List.mem_map.mp hm
    rw [List.mem_filter] at hdm
    obtain ⟨c, h1, h2, rfl⟩ := feeds_conn h.wired hl' hdm.1
    have hf : c.ty = .f := by
      cases e : c.ty with
      | c => simp [seen, e] at hdm
      | f => rfl
      | i => exact absurd e (h.floats c h1)
    have q1 := (hrk c h1).1 hf
    have q2 : ∀ a b, Signal.Reach (graph sh g) a b → rk a ≤ rk b := by
      intro a b h
      induction h with
      | refl => exact Int.le_refl _
      | tail _ h ih =>
        obtain ⟨c', h1, rfl, rfl⟩ := hfeed _ _ h
        exact ih.trans ((hrk c' h1).2.1 rfl)
    have := q2 _ _ hr
    simp only [seen] at this
    rw [h2] at q1
    omega
  · intro p hp ha
    rcases kinds_arith ha with ⟨name, hk⟩ | ⟨x, ch, hk, hs⟩
    · simp [graph, hk, kindShape, object]
    · simp [graph, hk, kindShape, hs, object, Signal.dacObj]
  · intro p hp l hl' d hd ha
    obtain ⟨c, h1, h2, rfl⟩ := feeds_conn h.wired hl' hd
    have t := ((h.typed _ rfl).1 c h1).1
    rcases kinds_arith ha with ⟨name, hk⟩ | ⟨x, ch, hk, hs⟩
    · have hk : g.kind c.src = _ := hk
      rw [hk] at t
      simp [seen, t.2]
    · have hk : g.kind c.src = _ := hk
      have hs : sh c.src = _ := hs
      rw [hk] at t
      simp only [Reduce.Kind.src, typing, hs] at t

end

/-! ### one block -/

section
variable {B : Nat} [NeZero B] [DecidableEq α] [Field α] {sh : Nat → Shape} {S : Nat → Prop} {L : Prop} {g : Reduce.Graph α} {n : Nat} {M : Multiset Reduce.Conn}

/-- the signals in block `b` -/
def blockOf (B : Nat) (v : Nat → Nat → Nat → α) (b p j : Nat) : Block B α := fun s => v p j (b * B + s)

omit [NeZero B] [DecidableEq α] in
theorem inletSum_seen (v : Nat → Nat → Nat → α) (b : Nat) (x : Signal.Buf) : ∀ l : List Reduce.Conn, (∀ c ∈ l, c.ty ≠ .i) →
    Signal.inletSum (blockOf B v b) ⟨l.map seen, x⟩ = fun s : Fin B => Reduce.inSum v l (b * B + s)
  | [], _ => by funext s; simp [Signal.inletSum, Reduce.inSum]
  | c :: l, h => by
    have ih := inletSum_seen v b x l fun d hd => h d (List.mem_cons_of_mem _ hd)
    funext s
    have ih := congrFun ih s
    simp only [Signal.inletSum, Reduce.inSum] at ih ⊢
    have hc := h c (by simp)
    cases e : c.ty with
    | c => simpa [seen, List.filter_cons, e] using ih
    | f => simpa [seen, List.filter_cons, e, blockOf] using ih
    | i => exact absurd e hc

/-- the signals at the inlets of an object in block `b` -/
def inputs (B : Nat) (sh : Nat → Shape) (g : Reduce.Graph α) (v : Nat → Nat → Nat → α) (p b : Nat) : List (Block B α) :=
  ((graph sh g).obj p).inlets.map (Signal.inletSum (blockOf B v b))

omit [NeZero B] in
theorem inputs_object (h : Reduce.ReadyT (some (typing sh S L)) g n M) (v : Nat → Nat → Nat → α) {p b m : Nat} {os : List (Option Signal.Ty)}
    {s : Bool} (hs : kindShape (sh p) (g.kind p) = .object m os s) :
    inputs B sh g v p b = (List.range m).map fun i => fun s : Fin B => Reduce.inSum v (g.ins p i) (b * B + s) := by
  simp only [inputs, graph, hs, object, List.map_map]
  refine List.map_congr_left fun i _ => ?_
  exact inletSum_seen v b _ _ fun c hc => h.floats c (h.wired.mem_ins.1 hc).1

theorem heard_inputs (h : Reduce.ReadyT (some (typing sh S L)) g n M) (v : Nat → Nat → Nat → α) {p b m : Nat} {os : List (Option Signal.Ty)}
    {s : Bool} {x : String} (hk : g.kind p = .other x) (hs : sh p = .object m os s) (i t : Nat) (ht : t / B ≤ b) :
    heard ((List.range b).map (inputs B sh g v p) ++ [inputs B sh g v p b]) i t = Reduce.inSum v (g.ins p i) t := by
  have e : (List.range b).map (inputs B sh g v p) ++ [inputs B sh g v p b] = (List.range (b + 1)).map (inputs B sh g v p) := by
    rw [List.range_succ, List.map_append]; rfl
  have hs' : kindShape (sh p) (g.kind p) = .object m os s := by rw [hk]; exact hs
  have e2 : ((List.range (b + 1)).map (inputs B sh g v p)).getD (t / B) [] = inputs B sh g v p (t / B) := by
    rw [List.getD_eq_getElem?_getD, List.getElem?_map, List.getElem?_range (by omega)]
    rfl
  rw [heard, e, e2, inputs_object h v hs', List.getD_eq_getElem?_getD, List.getElem?_map]
  by_cases him : i < m
  · rw [List.getElem?_range him]
    simp only [Option.map_some, Option.getD_some]
    congr 1
    show t / B * B + t % B = t
    rw [Nat.mul_comm]
    exact Nat.div_add_mod t B
  · rw [List.getElem?_eq_none (by simp; omega)]
    have : g.ins p i = [] := by
      rw [List.eq_nil_iff_forall_not_mem]
      intro c hc
      obtain ⟨h1, h2, h3⟩ := h.wired.mem_ins.1 hc
      have q := ((h.typed _ rfl).1 c h1).2
      rw [h2, hk] at q
      simp only [Reduce.Kind.dst, typing, hs, h3] at q
      exact him q
    rw [this]
    simp [Reduce.inSum]

omit [Field α] [DecidableEq α] in
theorem output_other (hl : ∀ p ∈ g.ids, low (g.kind p)) {p : Nat} (hp : p ∈ g.ids)
    (hs : ∀ m os s, kindShape (sh p) (g.kind p) ≠ .object m os s) : ∃ x, g.kind p = .other x := by
  have h1 := hl p hp
  cases hk : g.kind p <;> rw [hk] at h1 hs <;> first
    | exact ⟨_, rfl⟩
    | (simp [low] at h1; done)
    | exact absurd rfl (hs _ _ _)

omit [DecidableEq α] in
theorem compute_congr (W : Reduce.World α μ) (log : Nat → List (Reduce.Sent μ)) (K : Nat → Signal.Kind) (b : Nat)
    {h h' : Nat → List (List (Block B α))} {m : Reduce.Vars α B} {p : Nat} (e : h p = h' p) :
    compute W log sh g K b h m p = compute W log sh g K b h' m p := by
  funext l
  unfold compute special
  rw [e]

omit [DecidableEq α] in
theorem compute_length (W : Reduce.World α μ) (log : Nat → List (Reduce.Sent μ)) {K : Nat → Signal.Kind} {p : Nat}
    (hl : ∀ p ∈ g.ids, low (g.kind p)) (hp : p ∈ g.ids) (hK : K p = kinds sh g p) (b : Nat)
    (h : Nat → List (List (Block B α))) (m : Reduce.Vars α B) (l : List (Block B α)) :
    (compute W log sh g K b h m p l).length = ((graph sh g).obj p).outlets.length := by
  have hlp := hl p hp
  unfold compute
  simp only [graph]
  rw [hK]
  unfold kinds
  cases hk : g.kind p <;> rw [hk] at hlp <;> first
    | (simp [low] at hlp; done)
    | skip
  case varSig => simp [kindShape, object, special, hk]
  case varWrite => simp [kindShape, object, special, hk]
  case irBin name => simp only [kindShape, object]; split <;> simp [special, hk]
  case irUn name => simp [kindShape, object, special, hk]
  case irBinC name => simp [kindShape, object, special, hk]
  case irUnC name => simp [kindShape, object, special, hk]
  case varK name => simp [kindShape, object, special, hk]
  case varS name => simp [kindShape, object, special, hk]
  case varC name => simp [kindShape, object, special, hk]
  case varRead y => simp only [kindShape, object, special, hk]; split <;> simp
  case other x =>
    simp only [kindShape, special, hk]
    cases hs : sh p <;> simp [object, Signal.dacObj]

/-- the program of the later passes computes the signals of the reduced graph -/
theorem flow (W : Reduce.World α μ) (hW : Causal W B) (log : Nat → List (Reduce.Sent μ)) {K : Nat → Signal.Kind}
    (hr : Reduce.ReadyT (some (typing sh S L)) g n M) (hl : ∀ p ∈ g.ids, low (g.kind p))
    (hK : ∀ p ∈ g.ids, K p = kinds sh g p) (inp : Nat → Nat → α)
    (hin : ∀ p ∈ g.ids, ∀ x ch, g.kind p = .other x → sh p = .input ch → ∀ y m t, W.beh p y m 0 t = inp ch t)
    {v : Nat → Nat → Nat → α} (hv : Reduce.Solves W g log v) (b : Nat) (h : Nat → List (List (Block B α)))
    (hh : ∀ p ∈ g.ids, h p = (List.range b).map (inputs B sh g v p)) (vs : Nat → Reduce.Vars α B)
    (hvs : ∀ r ∈ g.ids, ∀ y, g.kind r = .varRead y → g.kind y = .varSig → vs r y = blockOf B v b r 0) :
    Signal.SumFlow (graph sh g) (fun p => compute W log sh g K b h (vs p) p) (fun c (s : Fin B) => inp c (b * B + s)) (blockOf B v b) := by
  constructor
  · intro p hp k out ch hout hpre
    simp only [graph] at hout
    cases he : kindShape (sh p) (g.kind p) with
    | object m os s =>
      rw [he] at hout
      simp only [object, List.getElem?_mapIdx, Option.map_eq_some_iff] at hout
      obtain ⟨ty, -, rfl⟩ := hout
      simp at hpre
    | output ch =>
      rw [he] at hout
      have := List.mem_of_getElem? hout
      simp only [object, Signal.dacObj, List.mem_singleton] at this
      rw [this] at hpre
      simp at hpre
    | input ch' =>
      obtain ⟨x, hx⟩ := output_other hl hp (by rw [he]; simp)
      rw [he] at hout
      cases k with
      | succ k => simp [object] at hout
      | zero =>
        simp only [object, List.getElem?_cons_zero, Option.some.injEq] at hout
        rw [← hout] at hpre
        simp only [Signal.Buf.input.injEq] at hpre
        rw [hx] at he
        have ho := hv p hp
        unfold Reduce.Obeys at ho
        rw [hx] at ho
        funext s
        show v p 0 _ = _
        rw [ho 0, hin p hp x ch' hx he, hpre]
  · intro p hp hs hd k x hx
    change (compute W log sh g K b h (vs p) p (inputs B sh g v p b))[k]? = some x at hx
    have hlp := hl p hp
    have ho := hv p hp
    unfold Reduce.Obeys at ho
    have single : ∀ y : Block B α, [y][k]? = some x → k = 0 ∧ x = y := by
      intro y e
      cases k with
      | zero => simp at e; exact ⟨rfl, e.symm⟩
      | succ k => simp at e
    cases hk : g.kind p <;> rw [hk] at hlp ho <;> first
      | (simp [low] at hlp; done)
      | (simp [graph, hk, kindShape, object] at hs; done)
      | skip
    case varWrite y =>
      unfold compute at hx
      rw [hK p hp] at hx
      simp [kinds, hk, special] at hx
    case irBin name =>
      have hi := inputs_object hr (B := B) v (p := p) (b := b) (m := 2) (os := [some .f]) (s := true) (by rw [hk]; rfl)
      have hm : ∀ f : α → α → α, (∀ x y, f x y = W.op (Reduce.irOp name) x y) → 
          (fun s : Fin B => f (Reduce.inSum v (g.ins p 0) (b * B + s)) (Reduce.inSum v (g.ins p 1) (b * B + s))) = blockOf B v b p 0 := by
        intro f hf
        funext s
        rw [hf, ← ho]; rfl
      have hc : compute W log sh g K b h (vs p) p (inputs B sh g v p b) = [blockOf B v b p 0] := by
        rw [hi]
        unfold compute
        rw [hK p hp]
        simp only [kinds, hk]
        by_cases h1 : name = "__mul~f"
        · rw [if_pos h1, ← hm (· * ·) (by subst h1; intro x y; simp [Reduce.irOp, Reduce.World.op])]
          rfl
        rw [if_neg h1]
        by_cases h2 : name = "__add~f"
        · rw [if_pos h2, ← hm (· + ·) (by subst h2; intro x y; simp [Reduce.irOp, Reduce.World.op])]
          rfl
        rw [if_neg h2]
        by_cases h3 : name = "__sub~f"
        · rw [if_pos h3, ← hm (· - ·) (by subst h3; intro x y; simp [Reduce.irOp, Reduce.World.op])]
          rfl
        rw [if_neg h3]
        simp only [special, hk]
        rw [← hm _ fun x y => rfl]
        rfl
      rw [hc] at hx
      obtain ⟨rfl, rfl⟩ := single _ hx
      rfl
    case irUn name =>
      have hi := inputs_object hr (B := B) v (p := p) (b := b) (m := 1) (os := [some .f]) (s := true) (by rw [hk]; rfl)
      have hc : compute W log sh g K b h (vs p) p (inputs B sh g v p b) = [blockOf B v b p 0] := by
        rw [hi]
        unfold compute
        rw [hK p hp]
        simp only [kinds, hk, special]
        congr 1
        funext s
        show W.fn _ (Reduce.inSum v (g.ins p 0) _) = _
        rw [← ho]; rfl
      rw [hc] at hx
      obtain ⟨rfl, rfl⟩ := single _ hx
      rfl
    case varK name =>
      unfold compute at hx
      rw [hK p hp] at hx
      simp only [kinds, hk, special] at hx
      obtain ⟨rfl, rfl⟩ := single _ hx
      funext s
      exact ho _
    case varRead y =>
      unfold compute at hx
      rw [hK p hp] at hx
      simp only [kinds, hk] at hx
      rcases ho with ⟨k1, hy, h2⟩ | ⟨w, -, -, hy, -⟩
      · simp only [special, hk, hy] at hx
        obtain ⟨rfl, rfl⟩ := single _ hx
        funext s
        exact h2 _
      · simp only [special, hk, hy] at hx
        obtain ⟨rfl, rfl⟩ := single _ hx
        exact (hvs p hp y hk hy).symm
    case other name =>
      simp only [graph, hk, kindShape] at hs hd
      cases he : sh p with
      | input ch => rw [he] at hs; simp [object] at hs
      | output ch => rw [he] at hd; simp [object, Signal.dacChan_dacObj] at hd
      | object m os s =>
        unfold compute at hx
        rw [hK p hp] at hx
        simp only [kinds, hk, he, special, List.getElem?_map, Option.map_eq_some_iff] at hx
        obtain ⟨j, hj, rfl⟩ := hx
        rw [List.getElem?_eq_some_iff] at hj
        obtain ⟨hj, hj'⟩ := hj
        rw [List.getElem_range] at hj'
        subst hj'
        funext q
        show v p k _ = _
        rw [ho k]
        have hq : (b * B + q) / B = b := by
          rw [Nat.mul_comm, Nat.mul_add_div (NeZero.pos B), Nat.div_eq_of_lt q.2, Nat.add_zero]
        refine hW p _ _ _ _ k _ (fun i t ht => ?_) fun i t _ => rfl
        rw [hq] at ht
        rw [hh p hp, heard_inputs hr v hk he i t ht]

omit [Field α] [DecidableEq α] [NeZero B] in
theorem exec_congr {β : Type} {F F' : Nat → List β → List β} : ∀ (ss : List Signal.Step) (x : Signal.Store β),
    (∀ y ∈ ss, F y.id = F' y.id) → Signal.exec F x ss = Signal.exec F' x ss
  | [], _, _ => rfl
  | y :: ss, x, h => by
    have ih := fun x => exec_congr ss x fun z hz => h z (List.mem_cons_of_mem _ hz)
    simp only [Signal.exec, h y (by simp), ih]

/-- every connection is seen by the later passes -/
theorem conn_feeds (h : Reduce.ReadyT (some (typing sh S L)) g n M) (hl : ∀ p ∈ g.ids, low (g.kind p)) {c : Reduce.Conn}
    (hc : c ∈ M) : Signal.Feeds (graph sh g) c.src c.dst := by
  have t := ((h.typed _ rfl).1 c hc).2
  have hl := hl _ (h.ends c hc).2
  have hm : c ∈ g.ins c.dst c.inlet := h.wired.mem_ins.2 ⟨hc, rfl, rfl⟩
  have hin : c.inlet < numIns (kindShape (sh c.dst) (g.kind c.dst)) := by
    cases hk : g.kind c.dst <;> rw [hk] at t hl <;> simp only [Reduce.Kind.dst, low, typing] at t hl <;>
      simp only [kindShape, numIns] <;> first
      | omega
      | (simp at hl; done)
      | (exact absurd t id)
      | (cases hs : sh c.dst <;> rw [hs] at t <;> simp only at t <;> simp only [numIns] <;> omega)
  simp only [Signal.Feeds, graph]
  cases hs : kindShape (sh c.dst) (g.kind c.dst) with
  | input => rw [hs] at hin; simp [numIns] at hin
  | output ch =>
    rw [hs] at hin
    have e : c.inlet = 0 := by simp only [numIns] at hin; omega
    rw [e] at hm
    exact ⟨_, by simp [object, Signal.dacObj]; exact .inl rfl, seen c, List.mem_map.2 ⟨c, hm, rfl⟩, rfl⟩
  | object m os s =>
    rw [hs] at hin
    exact ⟨_, List.mem_map.2 ⟨c.inlet, List.mem_range.2 hin, rfl⟩, seen c, List.mem_map.2 ⟨c, hm, rfl⟩, rfl⟩

/-- an object that leads to a leaf is run -/
theorem leads_runs (hr : Reduce.ReadyT (some (typing sh S L)) g n M) (hl : ∀ p ∈ g.ids, low (g.kind p)) {p : Nat}
    (hp : p ∈ g.ids) (hs : ((graph sh g).obj p).signal = true) (hk : ¬ Signal.Arith (kinds sh g p))
    (hlead : Signal.Leads (graph sh g) p) : p ∈ (later sh (g, n)).1.g.signalOrder := by
  have w := patch_wf hr hl
  have hn : ∀ p ∈ (graph sh g).ids, p < n := hr.below
  obtain ⟨leaf, l1, l2, l3⟩ := hlead
  obtain ⟨kwf1, cl1, nc1⟩ := Signal.expand_kwf hn w
  obtain ⟨h1, -, -⟩ := Signal.cascadeObjs_ok (graph sh g).ids (graph sh g) n hn fun _ h => h
  have h1 : Signal.Casc (graph sh g) n ((graph sh g).cascade n).1 ((graph sh g).cascade n).2 := h1
  have r := Signal.fma_correct (Signal.expand (graph sh g) (kinds sh g) n) ((graph sh g).cascade n).2 (h1.ref.lt hn) kwf1 cl1 nc1.sig
  obtain ⟨new, eids, hnew⟩ := h1.ref.ids
  have hin : ∀ q ∈ g.ids, q ∈ (Signal.expand (graph sh g) (kinds sh g) n).g.ids := by
    intro q hq
    show q ∈ ((graph sh g).cascade n).1.ids
    rw [eids]
    exact List.mem_append_left _ hq
  have lead : Signal.Leads (Signal.expand (graph sh g) (kinds sh g) n).g p := by
    refine ⟨leaf, hin _ l1, ?_, h1.ref.paths w.closed p leaf l1 l3⟩
    intro out hout
    have e : ((Signal.expand (graph sh g) (kinds sh g) n).g.obj leaf).outlets = ((graph sh g).obj leaf).outlets := h1.ref.outlets leaf l1
    rw [e] at hout
    exact l2 out hout
  have hpn := hr.below p hp
  have hmem : p ∈ (later sh (g, n)).1.g.ids := by
    by_contra hno
    have := (r.gone p (hin p hp) hno).1
    have e : (Signal.expand (graph sh g) (kinds sh g) n).kind p = kinds sh g p := by
      show (if n ≤ p then _ else kinds sh g p) = _
      rw [if_neg (by omega)]
    rw [e] at this
    exact hk this
  have hpn' := Nat.lt_of_lt_of_le hpn h1.ref.le
  have l' := r.lead p hmem hpn' lead
  refine ((Signal.signal_order_correct _ r.closed).2.1 p).2 ⟨?_, l'⟩
  have e1 : ((later sh (g, n)).1.g.obj p).signal = ((Signal.expand (graph sh g) (kinds sh g) n).g.obj p).signal := (r.kept p hmem hpn').2.2.1
  have e2 : ((Signal.expand (graph sh g) (kinds sh g) n).g.obj p).signal = ((graph sh g).obj p).signal := h1.ref.signal p hp
  exact e1.trans (e2.trans hs)

/-- without loops every object is run -/
theorem reduced_runs (hr : Reduce.ReadyT (some (typing sh S L)) g n M) (hl : ∀ p ∈ g.ids, low (g.kind p)) (hL : L) {p : Nat}
    (hp : p ∈ g.ids) (hs : ((graph sh g).obj p).signal = true) (hk : ¬ Signal.Arith (kinds sh g p)) :
    p ∈ (later sh (g, n)).1.g.signalOrder := by
  obtain ⟨rk, hrk⟩ := hr.rank
  have hacyc : Signal.Acyclic (graph sh g) := by
    have key : ∀ a b, Relation.TransGen (Signal.Feeds (graph sh g)) a b → rk a < rk b := by
      intro a b hab
      induction hab with
      | single h =>
        obtain ⟨l, h1, d, h2, rfl⟩ := h
        obtain ⟨c, h3, rfl, rfl⟩ := feeds_conn hr.wired h1 h2
        exact (hrk c h3).2.2 _ rfl hL
      | tail _ h ih =>
        obtain ⟨l, h1, d, h2, rfl⟩ := h
        obtain ⟨c, h3, rfl, rfl⟩ := feeds_conn hr.wired h1 h2
        exact ih.trans ((hrk c h3).2.2 _ rfl hL)
    exact fun o ho => absurd (key o o ho) (lt_irrefl _)
  have hcons : Signal.Consistent (graph sh g) := by
    intro o ho hleaf
    have : ∃ j, g.outs o j ≠ [] := by
      by_contra hno
      push Not at hno
      refine hleaf fun out hout => ?_
      simp only [graph] at hout
      cases he : kindShape (sh o) (g.kind o) with
      | input ch => rw [he] at hout; simp only [object, List.mem_singleton] at hout; rw [hout, hno]; rfl
      | output ch =>
        rw [he] at hout
        simp only [object, Signal.dacObj, List.mem_singleton] at hout
        rw [hout]
      | object m os s =>
        rw [he] at hout
        obtain ⟨i, hi, rfl⟩ := List.mem_mapIdx.1 hout
        simp [hno]
    obtain ⟨j, hj⟩ := this
    obtain ⟨c, hc⟩ := List.exists_mem_of_ne_nil _ hj
    obtain ⟨h1, rfl, -⟩ := hr.wired.mem_outs.1 hc
    exact ⟨c.dst, (hr.ends c h1).2, conn_feeds hr hl h1⟩
  obtain ⟨leaf, l1, l2, l3⟩ := Signal.reaches_leaf _ hacyc hcons p hp
  exact leads_runs hr hl hp hs hk ⟨leaf, l1, l2, l3⟩

/-- the write of a variable is run -/
theorem write_runs (hr : Reduce.ReadyT (some (typing sh S L)) g n M) (hl : ∀ p ∈ g.ids, low (g.kind p)) {w y : Nat}
    (hw : w ∈ g.ids) (hk : g.kind w = .varWrite y) : w ∈ (later sh (g, n)).1.g.signalOrder := by
  refine leads_runs hr hl hw (by simp [graph, hk, kindShape, object]) (by simp [kinds, hk, Signal.Arith]) ⟨w, hw, ?_, .refl⟩
  intro out hout
  simp [graph, hk, kindShape, object] at hout

/-- the later passes keep the types of the objects -/
theorem later_kind (hr : Reduce.ReadyT (some (typing sh S L)) g n M) (hl : ∀ p ∈ g.ids, low (g.kind p)) {p : Nat} (hp : p ∈ g.ids) :
    (later sh (g, n)).1.kind p = kinds sh g p := by
  have w := patch_wf hr hl
  have hn : ∀ p ∈ (graph sh g).ids, p < n := hr.below
  obtain ⟨kwf1, cl1, nc1⟩ := Signal.expand_kwf hn w
  obtain ⟨h1, -, -⟩ := Signal.cascadeObjs_ok (graph sh g).ids (graph sh g) n hn fun _ h => h
  have h1 : Signal.Casc (graph sh g) n ((graph sh g).cascade n).1 ((graph sh g).cascade n).2 := h1
  have r := Signal.fma_correct (Signal.expand (graph sh g) (kinds sh g) n) ((graph sh g).cascade n).2 (h1.ref.lt hn) kwf1 cl1 nc1.sig
  have hpn := hr.below p hp
  refine (r.kind p (Nat.lt_of_lt_of_le hpn h1.ref.le)).trans ?_
  show (if n ≤ p then _ else kinds sh g p) = _
  rw [if_neg (by omega)]

omit [DecidableEq α] [Field α] in
theorem dac_add (hl : ∀ p ∈ g.ids, low (g.kind p)) {p : Nat} (hp : p ∈ g.ids)
    (hd : (Signal.dacChan ((graph sh g).obj p)).isSome) : kinds sh g p = .add := by
  simp only [graph] at hd
  cases he : kindShape (sh p) (g.kind p) with
  | input ch => rw [he] at hd; simp [object, Signal.dacChan] at hd
  | output ch =>
    obtain ⟨x, hx⟩ := output_other hl hp (by rw [he]; simp)
    rw [hx] at he
    simp only [kindShape] at he
    simp [kinds, hx, he]
  | object m os s =>
    rw [he] at hd
    exfalso
    simp only [object, Signal.dacChan] at hd
    split at hd
    · rename_i l hl2
      have : l ∈ List.mapIdx (fun j ty => (⟨ty, (g.outs p j).length, .zero⟩ : Signal.Outlet)) os := by rw [hl2]; simp
      obtain ⟨i, hi, rfl⟩ := List.mem_mapIdx.1 this
      simp at hd
    · simp at hd

/-- all is silent -/
def silence (G : Signal.Graph) (K : Nat → Signal.Kind) (p : Nat) (l : List α) : List α :=
  match K p with
  | .mul => [l.getD 0 0 * l.getD 1 0]
  | .add => [l.getD 0 0 + l.getD 1 0]
  | .sub => [l.getD 0 0 - l.getD 1 0]
  | .fma => [l.getD 0 0 * l.getD 1 0 + l.getD 2 0]
  | .fms => [l.getD 0 0 * l.getD 1 0 - l.getD 2 0]
  | .other => (G.obj p).outlets.map fun _ => 0

/-- the reduced graph is compiled -/
theorem compiles (hr : Reduce.ReadyT (some (typing sh S L)) g n M) (hl : ∀ p ∈ g.ids, low (g.kind p)) :
    ∃ st ss, (later sh (g, n)).1.g.compile = .ok (st, ss) ∧ ss.map (·.id) = (later sh (g, n)).1.g.signalOrder ∧ (ss.map (·.id)).Nodup := by
  have w := patch_wf hr hl
  have hn : ∀ p ∈ (graph sh g).ids, p < n := hr.below
  have hcl : Signal.Closed (later sh (g, n)).1.g := by
    obtain ⟨kwf1, cl1, nc1⟩ := Signal.expand_kwf hn w
    obtain ⟨h1, -, -⟩ := Signal.cascadeObjs_ok (graph sh g).ids (graph sh g) n hn fun _ h => h
    exact (Signal.fma_correct (Signal.expand (graph sh g) (kinds sh g) n) ((graph sh g).cascade n).2 (h1.ref.lt hn) kwf1 cl1 nc1.sig).closed
  have hz : ∀ l : Signal.Inlet, Signal.inletSum (fun _ _ => (0 : α)) l = 0 := by
    intro l
    simp [Signal.inletSum]
  have hg : ∀ (l : List Signal.Inlet) i, (l.map (Signal.inletSum fun _ _ => (0 : α))).getD i 0 = 0 := by
    intro l i
    rw [List.getD_eq_getElem?_getD, List.getElem?_map]
    cases l[i]? with
    | none => rfl
    | some x => simp [hz]
  obtain ⟨st, ss, e1, e2, -⟩ := Signal.compiler_correct (α := α) (graph sh g) (kinds sh g) n hn w
    (silence (graph sh g) (later sh (g, n)).1.kind) (fun _ => 0) (fun _ _ => 0)
    ⟨fun _ _ _ _ _ _ _ => rfl, fun p hp _ _ k x hx => by
      unfold silence at hx
      have single : ∀ y : α, y = 0 → [y][k]? = some x → 0 = x := by
        intro y hy e
        cases k with
        | zero => simp at e; rw [← e, hy]
        | succ k => simp at e
      split at hx
      · exact single _ (by simp only [hg]; ring) hx
      · exact single _ (by simp only [hg]; ring) hx
      · exact single _ (by simp only [hg]; ring) hx
      · exact single _ (by simp only [hg]; ring) hx
      · exact single _ (by simp only [hg]; ring) hx
      · rw [List.getElem?_map, Option.map_eq_some_iff] at hx
        obtain ⟨-, -, h⟩ := hx
        exact h⟩
    ⟨fun o _ hk x y => by have hk : (later sh (g, n)).1.kind o = _ := hk; simp [silence, hk],
     fun o _ hk x y => by have hk : (later sh (g, n)).1.kind o = _ := hk; simp [silence, hk],
     fun o _ hk x y => by have hk : (later sh (g, n)).1.kind o = _ := hk; simp [silence, hk],
     fun o _ hk x y z => by have hk : (later sh (g, n)).1.kind o = _ := hk; simp [silence, hk],
     fun o _ hk x y z => by have hk : (later sh (g, n)).1.kind o = _ := hk; simp [silence, hk]⟩
    (fun o ho hd x y => by simp [silence, later_kind hr hl ho, dac_add hl ho hd])
    (fun o ho l _ => by
      unfold silence
      rw [later_kind hr hl ho]
      have hk : ∀ x, kinds sh g o = x → Signal.Arith x → 1 = ((graph sh g).obj o).outlets.length := by
        intro x e hx
        obtain ⟨-, ⟨out, h, -⟩, -⟩ := w.arity o ho (e ▸ hx)
        rw [h]; rfl
      have hno : kinds sh g o ≠ .fma ∧ kinds sh g o ≠ .fms := by
        unfold kinds
        constructor <;> (repeat' split) <;> simp
      cases e : kinds sh g o
      case mul => exact hk _ e (by simp [Signal.Arith])
      case add => exact hk _ e (by simp [Signal.Arith])
      case sub => exact hk _ e (by simp [Signal.Arith])
      case fma => exact absurd e hno.1
      case fms => exact absurd e hno.2
      case other => simp)
    fun _ _ => 0
  exact ⟨st, ss, e1, e2, e2 ▸ (Signal.signal_order_correct _ hcl).1⟩

omit [DecidableEq α] [NeZero B] in
/-- the program without the variables -/
theorem run_exec {kind : Nat → Reduce.Kind α} {F : Reduce.Vars α B → Nat → List (Block B α) → List (Block B α)}
    {F' : Nat → List (Block B α) → List (Block B α)} {E : Nat → Block B α} : ∀ (ss : List Signal.Step) (m : Reduce.Vars α B)
    (s : Signal.Store (Block B α)),
    (∀ pre y post, ss = pre ++ y :: post → F (Reduce.runVars kind E (pre.map (·.id)) m) y.id = F' y.id) →
    (∀ x ∈ (Signal.exec F' s ss).2, ∀ z, kind x.1 = .varWrite z → x.2.getD 0 0 = E x.1) →
    run kind F m s ss = ((Signal.exec F' s ss).1, Reduce.runVars kind E (ss.map (·.id)) m, (Signal.exec F' s ss).2)
  | [], _, _, _, _ => rfl
  | y :: ss, m, s, h1, h2 => by
    have e1 : F m y.id = F' y.id := h1 [] y ss rfl
    have e2 : Reduce.runOne kind (fun _ => (y.ins.map s).getD 0 0) y.id m = Reduce.runOne kind E y.id m := by
      unfold Reduce.runOne
      cases hk : kind y.id with
      | varWrite z =>
        have := h2 (y.id, y.ins.map s) (by simp [Signal.exec]) z hk
        simp only at this ⊢
        rw [this]
      | _ => rfl
    have ih := run_exec ss (Reduce.runOne kind E y.id m) (Signal.write s y.outs (F' y.id (y.ins.map s)))
      (fun pre z post e => h1 (y :: pre) z post (by rw [e]; rfl))
      (fun x hx => h2 x (by simp only [Signal.exec]; exact List.mem_cons_of_mem _ hx))
    simp only [run, Signal.exec, e1, e2, ih, List.map_cons, Reduce.runVars]

/-- the signals written to the variables -/
def written (B : Nat) (g : Reduce.Graph α) (v : Nat → Nat → Nat → α) (b o : Nat) : Block B α :=
  fun s => Reduce.inSum v (g.ins o 0) (b * B + s)

/-- the program of the later passes plays the signals of the reduced graph -/
theorem reduced_plays (W : Reduce.World α μ) (hW : Causal W B) (hB : W.block = B) (log : Nat → List (Reduce.Sent μ))
    (hr : Reduce.ReadyT (some (typing sh S L)) g n M) (hl : ∀ p ∈ g.ids, low (g.kind p)) (inp : Nat → Nat → α)
    (hin : ∀ p ∈ g.ids, ∀ x ch, g.kind p = .other x → sh p = .input ch → ∀ y m t, W.beh p y m 0 t = inp ch t)
    {v : Nat → Nat → Nat → α} (hv : Reduce.Solves W g log v) {st : Signal.St} {ss : List Signal.Step}
    (hc : (later sh (g, n)).1.g.compile = .ok (st, ss))
    (hlate : ∀ w r, W.late w r = decide ((ss.map (·.id)).idxOf r < (ss.map (·.id)).idxOf w))
    (junk : Nat → Signal.Ty → Nat → Block B α) (b : Nat) :
      (∀ p ∈ g.ids, p ∈ ss.map (·.id) → Signal.dacChan ((graph sh g).obj p) = none →
        (played (kindIn g) (compute W log sh g (later sh (g, n)).1.kind) ss (fun b c s => inp c (b * B + s)) junk b).ins p =
          (List.range b).map (inputs B sh g v p)) ∧
      ∀ c, output (kindIn g) (compute W log sh g (later sh (g, n)).1.kind) ss (fun b c s => inp c (b * B + s)) junk b c =
        Signal.patchOutput (graph sh g) (blockOf B v b) c := by
  have w := patch_wf hr hl
  have hn : ∀ p ∈ (graph sh g).ids, p < n := hr.below
  have hK : ∀ p ∈ g.ids, (later sh (g, n)).1.kind p = kinds sh g p := fun p hp => later_kind hr hl hp
  have hdac : ∀ p ∈ g.ids, (Signal.dacChan ((graph sh g).obj p)).isSome → kinds sh g p = .add := fun p hp => dac_add hl hp
  obtain ⟨st0, ss0, c1, hord, hnd⟩ := compiles hr hl
  rw [hc] at c1
  simp only [Except.ok.injEq, Prod.mk.injEq] at c1
  obtain ⟨rfl, rfl⟩ := c1
  have hkin : ∀ p y, kindIn g p = .varWrite y → p ∈ g.ids ∧ g.kind p = .varWrite y := by
    intro p y h
    unfold kindIn at h
    split at h
    · exact ⟨‹_›, h⟩
    · simp at h
  let order := ss.map (·.id)
  let vars : Nat → Reduce.Vars α B := Reduce.varsAt (kindIn g) (written B g v) order
  let vs : Nat → Nat → Reduce.Vars α B := fun b p => if p ∈ order then
    Reduce.runVars (kindIn g) (written B g v b) (order.take (order.idxOf p)) (vars b) else fun _ => blockOf B v b p 0
  -- what is read from a variable
  have hvs : ∀ b, ∀ r ∈ g.ids, ∀ y, g.kind r = .varRead y → g.kind y = .varSig → vs b r y = blockOf B v b r 0 := by
    intro b r hrm y hk hy
    by_cases ho : r ∈ order
    · simp only [vs, if_pos ho]
      have hobey := hv r hrm
      unfold Reduce.Obeys at hobey
      rw [hk] at hobey
      rcases hobey with ⟨k, h1, -⟩ | ⟨wr, w1, w2, -, w3⟩
      · rw [hy] at h1; simp at h1
      obtain ⟨pre, post, hsp, hnp⟩ : ∃ pre post, order = pre ++ r :: post ∧ r ∉ pre := by
        obtain ⟨pre, post, h⟩ := List.append_of_mem ho
        refine ⟨pre, post, h, fun hp => ?_⟩
        have hnd : order.Nodup := hnd
        rw [h, List.nodup_append] at hnd
        exact hnd.2.2 r hp r (by simp) rfl
      have hix : order.idxOf r = pre.length := by
        rw [hsp, List.idxOf_append_of_notMem hnp, List.idxOf_cons_self, Nat.add_zero]
      have htake : order.take (order.idxOf r) = pre := by rw [hix, hsp, List.take_left]
      rw [htake]
      funext i
      have := Reduce.read_is_late (kind := kindIn g) W order pre post r wr y (written B g v) (Reduce.inSum v (g.ins wr 0)) hnd hsp
        (by show wr ∈ ss.map (·.id); rw [hord]; exact write_runs hr hl w1 w2) (by rw [kindIn, if_pos w1, w2])
        (by rw [kindIn, if_pos hrm, hk])
        (fun o _ h => (hr.typed _ rfl).2.2.2 o (hkin o y h).1 wr w1 y (hkin o y h).2 w2) (fun _ _ => rfl) hB (hlate wr r) b i
      exact this.trans (w3 _).symm
    · simp only [vs, if_neg ho]
  have go : ∀ (b : Nat) (h : Nat → List (List (Block B α))), (∀ p ∈ g.ids, h p = (List.range b).map (inputs B sh g v p)) →
      ∀ junk : Signal.Ty → Nat → Block B α,
      (∀ c, (Signal.exec (fun p => compute W log sh g (later sh (g, n)).1.kind b h (vs b p) p) (Signal.Store.start (fun c s => inp c (b * B + s)) junk) ss).1
        (.output c) = Signal.patchOutput (graph sh g) (blockOf B v b) c) ∧
      ∀ x ∈ (Signal.exec (fun p => compute W log sh g (later sh (g, n)).1.kind b h (vs b p) p) (Signal.Store.start (fun c s => inp c (b * B + s)) junk) ss).2,
        x.1 ∈ g.ids → Signal.dacChan ((graph sh g).obj x.1) = none → x.2 = inputs B sh g v x.1 b := by
    intro b h hh junk
    obtain ⟨st', ss', e1, -, e3, e4, -⟩ := Signal.compiler_correct (graph sh g) (kinds sh g) n hn w
      (fun p => compute W log sh g (later sh (g, n)).1.kind b h (vs b p) p) (fun c s => inp c (b * B + s)) (blockOf B v b)
      (flow W hW log hr hl hK inp hin hv b h hh (vs b) (hvs b))
      ⟨fun o _ hk x y => by have hk : (later sh (g, n)).1.kind o = _ := hk; simp [compute, hk],
       fun o _ hk x y => by have hk : (later sh (g, n)).1.kind o = _ := hk; simp [compute, hk],
       fun o _ hk x y => by have hk : (later sh (g, n)).1.kind o = _ := hk; simp [compute, hk],
       fun o _ hk x y z => by have hk : (later sh (g, n)).1.kind o = _ := hk; simp [compute, hk],
       fun o _ hk x y z => by have hk : (later sh (g, n)).1.kind o = _ := hk; simp [compute, hk]⟩
      (fun o ho hd x y => by simp [compute, hK o ho, hdac o ho hd])
      (fun o ho l _ => compute_length W log hl ho (hK o ho) b h _ l) junk
    have e1 : (later sh (g, n)).1.g.compile = .ok (st', ss') := e1
    rw [hc] at e1
    simp only [Except.ok.injEq, Prod.mk.injEq] at e1
    obtain ⟨-, rfl⟩ := e1
    exact ⟨e3, e4⟩
  -- one block, from the history of the program
  have one : ∀ b (h : Nat → List (List (Block B α))), (∀ p ∈ g.ids, p ∈ ss.map (·.id) → Signal.dacChan ((graph sh g).obj p) = none →
        h p = (List.range b).map (inputs B sh g v p)) →
      ∃ s' rec', run (kindIn g) (compute W log sh g (later sh (g, n)).1.kind b h) (vars b) (Signal.Store.start (fun c s => inp c (b * B + s)) (junk b)) ss =
        (s', vars (b + 1), rec') ∧ rec'.map (·.1) = ss.map (·.id) ∧
      (∀ c, s' (.output c) = Signal.patchOutput (graph sh g) (blockOf B v b) c) ∧
      ∀ x ∈ rec', x.1 ∈ g.ids → Signal.dacChan ((graph sh g).obj x.1) = none → x.2 = inputs B sh g v x.1 b := by
    intro b h hh
    let h' : Nat → List (List (Block B α)) := fun p => if p ∈ g.ids then (List.range b).map (inputs B sh g v p) else h p
    obtain ⟨e2', e3'⟩ := go b h' (fun p hp => if_pos hp) (junk b)
    refine ⟨_, _, run_exec (E := written B g v b) (F' := fun p => compute W log sh g (later sh (g, n)).1.kind b h' (vs b p) p) ss _ _ ?_ ?_,
      Signal.exec_ids _ _ _, e2', e3'⟩
    · intro pre y post hsp
      have hmem : y ∈ ss := by rw [hsp]; simp
      have ho : y.id ∈ order := List.mem_map.2 ⟨y, hmem, rfl⟩
      have hov : vs b y.id = Reduce.runVars (kindIn g) (written B g v b) (pre.map (·.id)) (vars b) := by
        simp only [vs, if_pos ho]
        congr 1
        have hso : order = pre.map (·.id) ++ y.id :: post.map (·.id) := by
          show ss.map (·.id) = _
          rw [hsp]; simp
        have hnp : y.id ∉ pre.map (·.id) := fun hp => by
          have hnd : order.Nodup := hnd
          rw [hso, List.nodup_append] at hnd
          exact hnd.2.2 _ hp _ (by simp) rfl
        rw [hso, List.idxOf_append_of_notMem hnp, List.idxOf_cons_self, Nat.add_zero, List.take_left]
      rw [hov]
      by_cases hg : y.id ∈ g.ids
      · by_cases hd : Signal.dacChan ((graph sh g).obj y.id) = none
        · refine compute_congr W log _ b ?_
          simp only [h', if_pos hg]
          exact hh _ hg (List.mem_map.2 ⟨y, hmem, rfl⟩) hd
        · have := hdac _ hg (Option.isSome_iff_ne_none.2 hd)
          funext l
          simp only [compute, hK _ hg, this]
      · exact compute_congr W log _ b (by simp only [h', if_neg hg])
    · intro x hx z hz
      obtain ⟨hg, hk⟩ := hkin _ _ hz
      have hs : kindShape (sh x.1) (g.kind x.1) = .object 1 [] true := by rw [hk]; rfl
      rw [e3' x hx hg (by simp [graph, hs, object, Signal.dacChan]), inputs_object hr v hs]
      rfl
  have hist : ∀ b, (played (kindIn g) (compute W log sh g (later sh (g, n)).1.kind) ss (fun b c s => inp c (b * B + s)) junk b).vars = vars b ∧
      ∀ p ∈ g.ids, p ∈ ss.map (·.id) → Signal.dacChan ((graph sh g).obj p) = none →
      (played (kindIn g) (compute W log sh g (later sh (g, n)).1.kind) ss (fun b c s => inp c (b * B + s)) junk b).ins p =
        (List.range b).map (inputs B sh g v p) := by
    intro b
    induction b with
    | zero => exact ⟨rfl, fun p _ _ _ => rfl⟩
    | succ b ih =>
      obtain ⟨s', rec', o1, o2, o3, o4⟩ := one b _ ih.2
      simp only [played, block]
      rw [ih.1, o1]
      refine ⟨rfl, fun p hp hps hd => ?_⟩
      rw [ih.2 p hp hps hd, List.range_succ, List.map_append]
      congr 1
      rw [← o2] at hps
      obtain ⟨x, hx, hxp⟩ := List.mem_map.1 hps
      cases hf : rec'.find? (·.1 = p) with
      | none =>
        rw [List.find?_eq_none] at hf
        exact absurd (hf x hx) (by simp [hxp])
      | some y =>
        have hy := List.mem_of_find?_eq_some hf
        have hyp : y.1 = p := by simpa using List.find?_some hf
        have := o4 y hy (hyp ▸ hp) (by rw [hyp]; exact hd)
        simp [this, hyp]
  refine ⟨(hist b).2, fun c => ?_⟩
  obtain ⟨s', rec', o1, -, o3, -⟩ := one b _ (hist b).2
  simp only [output, block]
  rw [(hist b).1, o1]
  exact o3 c

omit [NeZero B] in
/-- what reaches an output channel in the reduced graph -/
theorem patchOutput_sends (hr : Reduce.ReadyT (some (typing sh S L)) g n M) (hl : ∀ p ∈ g.ids, low (g.kind p))
    (v : Nat → Nat → Nat → α) (b c : Nat) :
    Signal.patchOutput (graph sh g) (blockOf B v b) c = fun s : Fin B => sends sh g v c (b * B + s) := by
  have e : (graph sh g).ids.filter (fun o => ((graph sh g).obj o).signal ∧ Signal.dacChan ((graph sh g).obj o) = some c) =
      g.ids.filter (isOutput sh g c) := by
    refine List.filter_congr fun p hp => ?_
    rw [Bool.eq_iff_iff, decide_eq_true_iff]
    unfold isOutput
    simp only [graph]
    cases he : kindShape (sh p) (g.kind p) with
    | input ch =>
      obtain ⟨x, hx⟩ := output_other hl hp (by rw [he]; simp)
      rw [hx] at he
      simp only [kindShape] at he
      simp [hx, he, object]
    | output ch =>
      obtain ⟨x, hx⟩ := output_other hl hp (by rw [he]; simp)
      rw [hx] at he
      simp only [kindShape] at he
      simp [hx, he, object, Signal.dacObj, Signal.dacChan]
    | object m os s =>
      have h1 : Signal.dacChan (object g p (.object m os s)) ≠ some c := by
        simp only [object, Signal.dacChan]
        split
        · rename_i l hl2
          have : l ∈ List.mapIdx (fun j ty => (⟨ty, (g.outs p j).length, .zero⟩ : Signal.Outlet)) os := by rw [hl2]; simp
          obtain ⟨i, hi, rfl⟩ := List.mem_mapIdx.1 this
          simp
        · simp
      refine iff_of_false (fun h => h1 h.2) ?_
      rw [Bool.not_eq_true]
      cases hk : g.kind p <;> try rfl
      rw [hk] at he
      simp only [kindShape] at he
      simp [he]
  funext s
  unfold Signal.patchOutput sends
  rw [e]
  have : ∀ p ∈ (g.ids.filter (isOutput sh g c)), (((graph sh g).obj p).inlets.map (Signal.inletSum (blockOf B v b))).headD 0 =
      fun s : Fin B => Reduce.inSum v (g.ins p 0) (b * B + s) := by
    intro p hp
    have h1 := (List.mem_filter.1 hp).2
    unfold isOutput at h1
    split at h1
    · rename_i x ch hk hs
      simp only [graph, hk, kindShape, hs, object, Signal.dacObj, List.map_cons, List.headD_cons]
      exact inletSum_seen v b _ _ fun c hc => hr.floats c (hr.wired.mem_ins.1 hc).1
    · simp at h1
  rw [List.map_congr_left this]
  generalize (g.ids.filter (isOutput sh g c)) = l
  induction l with
  | nil => rfl
  | cons p l ih => simp only [List.map_cons, List.sum_cons, Pi.add_apply, ih]

/-! ### feedback -/

theorem reach_ids {G : Signal.Graph} (h : Signal.Closed G) {a b : Nat} (hr : Signal.Reach G a b) (hb : b ∈ G.ids) : a ∈ G.ids := by
  induction hr using ReflTransGen.head_induction_on with
  | refl => exact hb
  | head h1 _ ih => exact h _ ih _ h1

/-- a variable is read before it is written if a path leads from the read to the write -/
theorem reads_first (hr : Reduce.ReadyT (some (typing sh S L)) g n M) (hl : ∀ p ∈ g.ids, low (g.kind p)) {r w y y' : Nat}
    (hrm : r ∈ g.ids) (hrk : g.kind r = .varRead y') (hwm : w ∈ g.ids) (hwk : g.kind w = .varWrite y)
    (hp : Signal.Reach (graph sh g) r w) : Signal.Before r w (later sh (g, n)).1.g.signalOrder := by
  have W := patch_wf hr hl
  have hn : ∀ p ∈ (graph sh g).ids, p < n := hr.below
  obtain ⟨kwf1, cl1, nc1⟩ := Signal.expand_kwf hn W
  obtain ⟨h1, -, -⟩ := Signal.cascadeObjs_ok (graph sh g).ids (graph sh g) n hn fun _ h => h
  have h1 : Signal.Casc (graph sh g) n ((graph sh g).cascade n).1 ((graph sh g).cascade n).2 := h1
  have R := Signal.fma_correct (Signal.expand (graph sh g) (kinds sh g) n) ((graph sh g).cascade n).2 (h1.ref.lt hn) kwf1 cl1 nc1.sig
  have hlt : ∀ p ∈ g.ids, p < ((graph sh g).cascade n).2 := fun p hp => Nat.lt_of_lt_of_le (hr.below p hp) h1.ref.le
  have hww := write_runs hr hl hwm hwk
  have hw' := ((Signal.signal_order_correct _ R.closed).2.1 w).1 hww
  have hwm' : w ∈ (later sh (g, n)).1.g.ids := by
    obtain ⟨-, leaf, a, -, b⟩ := hw'
    exact reach_ids R.closed b a
  have hleaf0 : ((graph sh g).obj w).outlets = [] := by simp [graph, hwk, kindShape, object]
  have hleaf : Signal.Leaf (graph sh g) w := by
    intro out hout
    rw [hleaf0] at hout
    simp at hout
  have hrr := leads_runs hr hl hrm (by simp [graph, hrk, kindShape, object]) (by simp [kinds, hrk, Signal.Arith]) ⟨w, hwm, hleaf, hp⟩
  have hr' := ((Signal.signal_order_correct _ R.closed).2.1 r).1 hrr
  have hrm' : r ∈ (later sh (g, n)).1.g.ids := by
    obtain ⟨-, leaf, a, -, b⟩ := hr'
    exact reach_ids R.closed b a
  have e1 : ((Signal.expand (graph sh g) (kinds sh g) n).g.obj w).outlets = [] := (h1.ref.outlets w hwm).trans hleaf0
  have e2 : (((Signal.expand (graph sh g) (kinds sh g) n).fma ((graph sh g).cascade n).2).1.g.obj w).outlets = [] :=
    (R.kept w hwm' (hlt w hwm)).2.1.trans e1
  refine Signal.before_filter _ ?_ hr'.1 hw'.1
  refine Signal.leaf_last _ R.closed hwm' (by intro out hout; rw [e2] at hout; simp at hout) ?_ ?_ ?_
  · intro x hx hf
    obtain ⟨x', hx', l, hl', c, hc, rfl⟩ := R.feeds w (hlt w hwm) x hx hf
    rcases h1.ref.conns x' hx' l hl' c hc with h | ⟨o0, ho0, l0, hl0, hc0⟩
    · obtain ⟨-, out, h3, -⟩ := kwf1.wf.source x' hx' l hl' c hc h
      rw [e1] at h3
      simp at h3
    · obtain ⟨d, hd, -, rfl⟩ := feeds_conn hr.wired hl0 hc0
      have t := ((hr.typed _ rfl).1 d hd).1
      have hwk : g.kind d.src = _ := hwk
      rw [hwk] at t
      exact t
  · exact R.paths r hrm' w hwm' (hlt r hrm) (hlt w hwm) (h1.ref.paths W.closed r w hwm hp)
  · rintro rfl
    rw [hrk] at hwk
    simp at hwk

theorem reads_idx (hr : Reduce.ReadyT (some (typing sh S L)) g n M) (hl : ∀ p ∈ g.ids, low (g.kind p)) {r w y y' : Nat}
    (hrm : r ∈ g.ids) (hrk : g.kind r = .varRead y') (hwm : w ∈ g.ids) (hwk : g.kind w = .varWrite y)
    (hp : ReflTransGen (fun a b => ∃ c ∈ M, c.src = a ∧ c.dst = b) r w) :
    (later sh (g, n)).1.g.signalOrder.idxOf r < (later sh (g, n)).1.g.signalOrder.idxOf w := by
  obtain ⟨st, ss, -, c2, c3⟩ := compiles hr hl
  have hp' : Signal.Reach (graph sh g) r w := by
    have key : ∀ a b, ReflTransGen (fun a b => ∃ c ∈ M, c.src = a ∧ c.dst = b) a b → Signal.Reach (graph sh g) a b := by
      intro a b h
      induction h with
      | refl => exact .refl
      | tail _ h ih =>
        obtain ⟨c, hc, rfl, rfl⟩ := h
        exact ih.tail (conn_feeds hr hl hc)
    exact key r w hp
  obtain ⟨l1, l2, e, hm⟩ := reads_first hr hl hrm hrk hwm hwk hp'
  rw [c2, e] at c3
  have hw : w ∉ l1 := fun h => (List.nodup_append.1 c3).2.2 w h w (by simp) rfl
  rw [e, List.idxOf_append_of_mem hm, List.idxOf_append_of_notMem hw, List.idxOf_cons_self]
  exact Nat.lt_of_lt_of_le (List.idxOf_lt_length_iff.2 hm) (Nat.le_add_right _ _)

/-! ### the signals -/

/-- one round of evaluation -/
def round (W : Reduce.World α μ) (g : Reduce.Graph α) (log : Nat → List (Reduce.Sent μ)) (wof : Nat → Nat) (v : Nat → Nat → Nat → α)
    (p j t : Nat) : α :=
  match g.kind p with
  | .other _ => W.beh p (fun i t => Reduce.inSum v (g.ins p i) t) (fun i t => Reduce.received (log t) (g.ins p i)) j t
  | .varRead y => match g.kind y with
    | .varSig => Reduce.lagged W (wof p) p (Reduce.inSum v (g.ins (wof p) 0)) t
    | _ => Reduce.rhs W g log v p t
  | _ => Reduce.rhs W g log v p t

/-- signals exist if what an object needs in a block comes before: `c` is the order -/
theorem signals_of_rank {T : Option Reduce.Typing} (h : Reduce.ReadyT T g n M) (h' : ∀ p ∈ g.ids, ∀ m, g.kind p ≠ .receive m)
    (W : Reduce.World α μ) (hW : Causal W B) (hB : W.block = B) (log : Nat → List (Reduce.Sent μ)) (c : Nat → Nat)
    (hc : ∀ d ∈ M, d.ty = .f → c d.src < c d.dst) (wof : Nat → Nat)
    (hw : ∀ r ∈ g.ids, ∀ y, g.kind r = .varRead y → g.kind y = .varSig → wof r ∈ g.ids ∧ g.kind (wof r) = .varWrite y ∧
      (W.late (wof r) r = false → c (wof r) < c r)) : ∃ v, Reduce.Solves W g log v := by
  have hB0 : 0 < B := NeZero.pos B
  let K := g.ids.toFinset.sup c + 1
  have hK : ∀ p ∈ g.ids, c p < K := fun p hp => Nat.lt_succ_of_le (Finset.le_sup (f := c) (List.mem_toFinset.2 hp))
  let ms : Nat → Nat → Nat := fun p t => t / B * K + c p
  have local_ : ∀ (v v' : Nat → Nat → Nat → α) p, p ∈ g.ids → ∀ t, (∀ q ∈ g.ids, ∀ j t', ms q t' < ms p t → v' q j t' = v q j t') →
      ∀ j, round W g log wof v' p j t = round W g log wof v p j t := by
    intro v v' p hp t hvv j
    have hsum : ∀ p' i t', (∀ d ∈ M, d.dst = p' → d.ty = .f → ms d.src t' < ms p t) →
        Reduce.inSum v' (g.ins p' i) t' = Reduce.inSum v (g.ins p' i) t' := by
      intro p' i t' hlt
      refine Reduce.inSum_congr fun d hd hf => ?_
      obtain ⟨h1, h2, -⟩ := h.wired.mem_ins.1 hd
      exact hvv _ (h.ends d h1).1 _ _ (hlt d h1 h2 hf)
    have hown : ∀ i t', t' / B ≤ t / B → Reduce.inSum v' (g.ins p i) t' = Reduce.inSum v (g.ins p i) t' := by
      intro i t' ht
      refine hsum p i t' fun d hd hdp hf => ?_
      have h1 := hc d hd hf
      rw [hdp] at h1
      have h2 := Nat.mul_le_mul_right K ht
      show t' / B * K + c d.src < t / B * K + c p
      omega
    have hrhs : Reduce.rhs W g log v' p t = Reduce.rhs W g log v p t := by
      refine Reduce.rhs_congr fun i d hd hf => ?_
      obtain ⟨h1, h2, -⟩ := h.wired.mem_ins.1 hd
      have h3 := hc d h1 hf
      rw [h2] at h3
      exact hvv _ (h.ends d h1).1 _ _ (by show t / B * K + _ < t / B * K + _; omega)
    unfold round
    split
    · exact hW p _ _ _ _ j t hown fun _ _ _ => rfl
    · rename_i y hy
      split
      · rename_i hys
        obtain ⟨w1, w2, w3⟩ := hw p hp y hy hys
        unfold Reduce.lagged
        split
        · split
          · rfl
          · rename_i hl ht
            rw [hB] at ht ⊢
            refine hsum _ _ _ fun d hd hdp hf => ?_
            have h1 := hK _ (h.ends d hd).1
            have h2 : t / B = (t - B) / B + 1 := Nat.div_eq_sub_div hB0 (by omega)
            show (t - B) / B * K + c d.src < t / B * K + c p
            rw [h2, Nat.succ_mul]
            omega
        · rename_i hl
          refine hsum _ _ _ fun d hd hdp hf => ?_
          have h1 := hc d hd hf
          rw [hdp] at h1
          have h2 := w3 (by simpa using hl)
          show t / B * K + c d.src < t / B * K + c p
          omega
      · exact hrhs
    · exact hrhs
  let it : Nat → Nat → Nat → Nat → α := fun m => Nat.rec (fun _ _ _ => 0) (fun _ v => round W g log wof v) m
  have hit : ∀ m, it (m + 1) = round W g log wof (it m) := fun m => rfl
  have stable : ∀ m p, p ∈ g.ids → ∀ j t, ms p t < m → it (m + 1) p j t = it m p j t := by
    intro m
    induction m with
    | zero => intro p _ j t hp; omega
    | succ m ih =>
      intro p hp j t hlt
      rw [hit (m + 1), hit m]
      refine local_ _ _ p hp t (fun q hq j' t' hq' => ?_) j
      rw [← hit m]
      exact ih q hq j' t' (by omega)
  have stable' : ∀ m p, p ∈ g.ids → ∀ j t, ms p t < m → it m p j t = it (ms p t + 1) p j t := by
    intro m p hp j t
    induction m with
    | zero => intro h; omega
    | succ m ih =>
      intro hlt
      by_cases e : ms p t = m
      · rw [e]
      · rw [stable m p hp j t (by omega), ih (by omega)]
  let v : Nat → Nat → Nat → α := fun p j t => it (ms p t + 1) p j t
  have hv : ∀ p ∈ g.ids, ∀ j t, v p j t = round W g log wof v p j t := by
    intro p hp j t
    show it (ms p t + 1) p j t = _
    rw [hit]
    refine local_ _ _ p hp t (fun q hq j' t' hlt => ?_) j
    exact stable' _ q hq j' t' hlt
  refine ⟨v, fun p hp => ?_⟩
  by_cases ho : ∃ s, g.kind p = .other s
  · obtain ⟨s, ho⟩ := ho
    unfold Reduce.Obeys
    rw [ho]
    intro j t
    rw [hv p hp, round, ho]
  · by_cases hy : ∃ y, g.kind p = .varRead y ∧ g.kind y = .varSig
    · obtain ⟨y, hy, hys⟩ := hy
      obtain ⟨w1, w2, -⟩ := hw p hp y hy hys
      unfold Reduce.Obeys
      rw [hy]
      refine .inr ⟨wof p, w1, w2, hys, fun t => ?_⟩
      rw [hv p hp, round, hy]
      simp only [hys]
    · refine Reduce.obeys_of_rhs (fun s hk => ho ⟨s, hk⟩) (h' p hp) (fun y hk => (h.reads p hp y hk).2.resolve_right fun e => hy ⟨y, hk, e.1⟩) fun t => ?_
      rw [hv p hp, round]
      split
      · rename_i s hk
        exact absurd ⟨s, hk⟩ ho
      · rename_i y hk
        split
        · exact absurd ⟨y, hk, ‹_›⟩ hy
        · rfl
      · rfl

/-- a reduced graph has signals: what is sent and received at once, or a block later if the read runs first -/
theorem reduced_signals (hr : Reduce.ReadyT (some (typing sh S L)) g n M) (hl : ∀ p ∈ g.ids, low (g.kind p))
    (W : Reduce.World α μ) (hW : Causal W B) (hB : W.block = B) (log : Nat → List (Reduce.Sent μ))
    (hlate : ∀ w r, W.late w r = decide ((later sh (g, n)).1.g.signalOrder.idxOf r < (later sh (g, n)).1.g.signalOrder.idxOf w)) :
    ∃ v, Reduce.Solves W g log v := by
  classical
  obtain ⟨rk, hrk⟩ := hr.rank
  let ord := (later sh (g, n)).1.g.signalOrder
  let P : Nat → Nat → Prop := ReflTransGen fun a b => ∃ c ∈ M, c.src = a ∧ c.dst = b
  let rds : Nat → Finset Nat := fun p => g.ids.toFinset.filter fun r => (∃ y, g.kind r = .varRead y) ∧ P r p
  let R1 : Nat → Nat := fun p => (rds p).sup fun r => ord.idxOf r + 1
  let cnt : Nat → Nat := fun p => (g.ids.toFinset.filter fun q => rk q < rk p).card
  let T := g.ids.toFinset.card + 1
  have hT : ∀ p, cnt p < T := fun p => Nat.lt_succ_of_le (Finset.card_filter_le _ _)
  have hno : ∀ p ∈ g.ids, ∀ m, g.kind p ≠ .receive m := by
    intro p hp m hk
    have := hl p hp
    rw [hk] at this
    simp [low] at this
  let wof : Nat → Nat := fun r => match g.kind r with
    | .varRead y => if h : ∃ w ∈ g.ids, g.kind w = .varWrite y then h.choose else 0
    | _ => 0
  refine signals_of_rank hr hno W hW hB log (fun p => R1 p * T + cnt p) ?_ wof ?_
  · intro d hd hf
    have h1 : R1 d.src ≤ R1 d.dst := by
      refine Finset.sup_mono fun r hr' => ?_
      obtain ⟨a, b, b'⟩ := Finset.mem_filter.1 hr'
      exact Finset.mem_filter.2 ⟨a, b, b'.tail ⟨d, hd, rfl, rfl⟩⟩
    have h2 : cnt d.src < cnt d.dst := by
      have h3 := (hrk d hd).1 hf
      refine Finset.card_lt_card (Finset.ssubset_iff_subset_ne.2 ⟨fun q hq => ?_, fun e => ?_⟩)
      · obtain ⟨a, b⟩ := Finset.mem_filter.1 hq
        exact Finset.mem_filter.2 ⟨a, by omega⟩
      · have h4 : d.src ∈ g.ids.toFinset.filter fun q => rk q < rk d.dst :=
          Finset.mem_filter.2 ⟨List.mem_toFinset.2 (hr.ends d hd).1, h3⟩
        rw [← e] at h4
        have := (Finset.mem_filter.1 h4).2
        omega
    have h3 := Nat.mul_le_mul_right T h1
    show R1 d.src * T + cnt d.src < R1 d.dst * T + cnt d.dst
    omega
  · intro r hrm y hk hys
    have hex : ∃ w ∈ g.ids, g.kind w = .varWrite y := by
      rcases (hr.reads r hrm y hk).2 with ⟨k, h⟩ | h
      · rw [hys] at h; simp at h
      · exact h.2
    have e : wof r = hex.choose := by
      simp only [wof, hk]
      rw [dif_pos hex]
    obtain ⟨w1, w2⟩ := hex.choose_spec
    rw [← e] at w1 w2
    refine ⟨w1, w2, fun hla => ?_⟩
    rw [hlate] at hla
    have hla : ord.idxOf (wof r) ≤ ord.idxOf r := by simpa using hla
    have h1 : R1 (wof r) ≤ ord.idxOf (wof r) := by
      refine Finset.sup_le fun r0 hr0 => ?_
      obtain ⟨a, ⟨y0, b⟩, b'⟩ := Finset.mem_filter.1 hr0
      exact reads_idx hr hl (List.mem_toFinset.1 a) b w1 w2 b'
    have h2 : ord.idxOf r + 1 ≤ R1 r :=
      Finset.le_sup (f := fun r => ord.idxOf r + 1) (Finset.mem_filter.2 ⟨List.mem_toFinset.2 hrm, ⟨y, hk⟩, .refl⟩)
    have h3 : R1 (wof r) + 1 ≤ R1 r := by omega
    have h4 := Nat.mul_le_mul_right T h3
    have h5 := hT (wof r)
    rw [Nat.succ_mul] at h4
    show R1 (wof r) * T + cnt (wof r) < R1 r * T + cnt r
    omega

/-- a patch with objects of the shapes `sh` that can be compiled: connections only between inlets and outlets that are there, no
loop that contains a signal (and no loop at all if `L`), operators with inputs that they support, no two inputs at an inlet of
an operator for which this is not allowed.  A loop through `[send~]` and `[receive~]` is no loop of connections. -/
abbrev Compilable (sh : Nat → Shape) (L : Prop) (g : Reduce.Graph α) (n : Nat) (M : Multiset Reduce.Conn) : Prop :=
  Reduce.ReadyT (some (typing sh (fun _ => True) L)) g n M

theorem ready_of {T : Option Reduce.Typing} (h : Reduce.ReadyT T g n M) : Reduce.Ready g n M :=
  ⟨h.wired, h.nodup, h.below, h.ends, h.loop, h.floats, h.rank.imp fun rk hrk c hc => ⟨(hrk c hc).1, (fun h => absurd h (by simp)),
    fun _ h => absurd h (by simp)⟩, h.reads, h.lets, h.fits, fun τ hτ => absurd hτ (by simp)⟩

/-- every such patch without `[receive~]` has signals, whatever its objects do and whatever messages are sent -/
theorem patch_has_signals (h : Compilable sh L g n M) (h' : ∀ p ∈ g.ids, (∀ m, g.kind p ≠ .receive m) ∧ g.kind p ≠ .varSig)
    (W : Reduce.World α μ) (log : Nat → List (Reduce.Sent μ)) : ∃ v, Reduce.Solves W g log v :=
  Reduce.signals_exist (ready_of h) h' W log

/-- other places for the objects that are not made by the passes -/
theorem retype (h : Reduce.ReadyT (some (typing sh S L)) g n M) {S' : Nat → Prop} (hS : ∀ p ∈ g.ids, (g.kind p).foreign → S' p) :
    Reduce.ReadyT (some (typing sh S' L)) g n M :=
  ⟨h.wired, h.nodup, h.below, h.ends, h.loop, h.floats,
    h.rank.imp fun rk hrk c hc => ⟨(hrk c hc).1, (hrk c hc).2.1, fun τ hτ hL => (hrk c hc).2.2 _ rfl (by cases hτ; exact hL)⟩,
    h.reads, h.lets, h.fits, fun τ hτ => by
    cases hτ
    have t := h.typed _ rfl
    refine ⟨fun c hc => ?_, hS, t.2.2⟩
    have t := t.1 c hc
    constructor
    · have := t.1; cases hk : g.kind c.src <;> rw [hk] at this <;> exact this
    · have := t.2; cases hk : g.kind c.dst <;> rw [hk] at this <;> exact this⟩

/-- a signal is sent under every name -/
def Mailed (g : Reduce.Graph α) : Prop :=
  ∀ p ∈ g.ids, ∀ m, g.kind p = .send m ∨ g.kind p = .receive m → Reduce.Postal g p

/-- a path of connections -/
def Path (g : Reduce.Graph α) : Nat → Nat → Prop := ReflTransGen fun a b => ∃ i, ∃ c ∈ g.ins b i, c.src = a

/-- **C87.**  Every patch that can be compiled is compiled to a process list, in which no object is twice; without loops every
signal object (that is neither an operator nor a channel of `[adc~]`, `[dac~]`) is in it.  Every `[send~]` has become the write `wr s` of
a variable and for every `[receive~]` of its name there is a read `rd s r` of this variable: `late s r` says whether the read runs
first, as it does if a path leads from the read to the write.  In every world, for all messages, there are signals `v` that solve
the patch, where what `s` sends is received by `r` at once, or one block later if `late s r`; and for all such `v`, all inputs,
whatever the buffers hold at the beginning of a block, in every block: the program plays on every output channel, sample by
sample, what the patch sends there, and every such object of the process list has had in all blocks until then exactly the
signals that the patch has at its inlets. -/
theorem patch_plays_partial (h : Compilable sh L g n M) (hpost : Reduce.Posted g M) (hmail : Mailed g) :
    ∃ g1 n1 g' n' ρ, ∃ (wr : Nat → Nat) (rd : Nat → Nat → Nat) (late : Nat → Nat → Bool) (st : Signal.St) (ss : List Signal.Step),
      g.remap n = some (g1, n1) ∧ g1.reduce n1 = some (g', n') ∧
      (later sh (g', n')).1.g.compile = .ok (st, ss) ∧ (ss.map (·.id)).Nodup ∧
      (L → ∀ p ∈ g.ids, ∀ x m os, g.kind p = .other x → sh p = .object m os true → p ∈ ss.map (·.id)) ∧
      (∀ s ∈ g.ids, ∀ r ∈ g.ids, ∀ m, g.kind s = .send m → g.kind r = .receive m →
        (∃ y, g'.kind (wr s) = .varWrite y ∧ g'.kind (rd s r) = .varRead y) ∧ wr s ∈ g'.ids ∧ rd s r ∈ g'.ids ∧ wr s ∈ ss.map (·.id) ∧
        (late s r = true ↔ (ss.map (·.id)).idxOf (rd s r) < (ss.map (·.id)).idxOf (wr s)) ∧
        (Path g' (rd s r) (wr s) → late s r = true)) ∧
      ∀ (W : Reduce.World α μ), Causal W B → W.block = B → (∀ s r, W.late s r = late s r) → ∀ inp : Nat → Nat → α,
      (∀ p ∈ g.ids, ∀ x ch, g.kind p = .other x → sh p = .input ch → ∀ y m t, W.beh p y m 0 t = inp ch t) →
      ∀ log : Nat → List (Reduce.Sent μ), (∀ t, ∀ e ∈ log t, e.src ∈ g.ids) → (∃ v, Reduce.Solves W g log v) ∧ ∀ v, Reduce.Solves W g log v →
      ∀ (junk : Nat → Signal.Ty → Nat → Block B α) (b : Nat),
        let F := compute W (Reduce.rename ρ log) sh g' (later sh (g', n')).1.kind
        (∀ c (s : Fin B), output (kindIn g') F ss (fun b c s => inp c (b * B + s)) junk b c s = sends sh g v c (b * B + s)) ∧
        ∀ p ∈ g.ids, p ∈ ss.map (·.id) → ∀ x m os s, g.kind p = .other x → sh p = .object m os s →
          (played (kindIn g') F ss (fun b c s => inp c (b * B + s)) junk b).ins p =
            (List.range b).map fun b' => (List.range m).map fun i => fun s : Fin B => Reduce.inSum v (g.ins p i) (b' * B + s) := by
  have h := retype (S' := fun p => p ∈ g.ids) h fun p hp _ => hp
  obtain ⟨g1, n1, M1, wr, rd, r1, r2, r3, r4⟩ := Reduce.remap_ok (μ := μ) h hpost
  let W0 : Reduce.World α μ := ⟨fun _ a _ => a, fun _ a => a, fun _ => none, fun _ _ _ _ _ => 0, fun _ _ => false, 1⟩
  have R := r4 W0
  have hno : ∀ p ∈ g1.ids, (∀ m, g1.kind p ≠ .send m) ∧ ∀ m, g1.kind p ≠ .receive m := by
    intro p hp
    by_cases hpn : p < n
    · obtain ⟨h1, h2⟩ := (R.ids p hpn).1 hp
      rw [R.kind p hpn]
      exact ⟨fun m hk => h2 (hmail p h1 m (.inl hk)), fun m hk => h2 (hmail p h1 m (.inr hk))⟩
    · obtain ⟨h1, h2, -⟩ := R.fresh p hp (by omega)
      exact ⟨h1, h2⟩
  have hfor : ∀ p ∈ g1.ids, ∀ x, g1.kind p = .other x → p ∈ g.ids ∧ g.kind p = .other x := by
    intro p hp x hx
    have := (r2.typed _ rfl).2.1 p hp (by rw [hx]; rfl)
    exact ⟨this, by rw [← R.kind p (h.below p this), hx]⟩
  have hkeep1 : ∀ p ∈ g.ids, ∀ x, g.kind p = .other x → p ∈ g1.ids ∧ g1.kind p = .other x := by
    intro p hp x hx
    refine ⟨(R.ids p (h.below p hp)).2 ⟨hp, ?_⟩, by rw [R.kind p (h.below p hp), hx]⟩
    rintro ⟨-, ⟨m, hm, -⟩ | ⟨m, hm, -⟩⟩ <;> rw [hx] at hm <;> simp at hm
  have q := retype (S' := fun p => p ∈ g1.ids ∧ (g1.kind p).lang = false) r2 fun p hp hf => ⟨hp, by
    cases hk : g1.kind p <;> rw [hk] at hf <;> simp_all [Reduce.Kind.foreign, Reduce.Kind.lang]⟩
  obtain ⟨g', n', M', ρ, δ, e1, e2, e3, e4⟩ := Reduce.reduce_ok (μ := μ) q
  have hback1 : ∀ p ∈ g'.ids, (g'.kind p).foreign → p ∈ g1.ids ∧ g1.kind p = g'.kind p := by
    intro p hp hf
    obtain ⟨h1, h2⟩ := (e2.typed _ rfl).2.1 p hp hf
    exact ⟨h1, ((e4 W0).keep p h1 h2).2.1.symm⟩
  have hlow : ∀ p ∈ g'.ids, low (g'.kind p) := by
    intro p hp
    have := e3 p hp
    cases hk : g'.kind p <;> rw [hk] at this <;> first
      | rfl
      | (simp [Reduce.Kind.lang] at this; done)
      | skip
    · obtain ⟨h1, h2⟩ := hback1 p hp (by rw [hk]; rfl)
      exact absurd (h2.trans hk) ((hno p h1).1 _)
    · obtain ⟨h1, h2⟩ := hback1 p hp (by rw [hk]; rfl)
      exact absurd (h2.trans hk) ((hno p h1).2 _)
  have hback : ∀ p ∈ g'.ids, ∀ x, g'.kind p = .other x → p ∈ g.ids ∧ g.kind p = .other x := by
    intro p hp x hx
    obtain ⟨h1, h2⟩ := hback1 p hp (by rw [hx]; rfl)
    exact hfor p h1 x (h2.trans hx)
  have hkeep : ∀ p ∈ g.ids, ∀ x, g.kind p = .other x → p ∈ g'.ids ∧ g'.kind p = .other x := by
    intro p hp x hx
    obtain ⟨h1, h2⟩ := hkeep1 p hp x hx
    obtain ⟨h3, h4, -⟩ := (e4 W0).keep p h1 (by rw [h2]; rfl)
    exact ⟨h3, h4.trans h2⟩
  obtain ⟨st, ss, c1, c2, c3⟩ := compiles e2 hlow
  let late : Nat → Nat → Bool := fun s r => decide ((ss.map (·.id)).idxOf (rd s r) < (ss.map (·.id)).idxOf (wr s))
  refine ⟨g1, n1, g', n', ρ, wr, rd, late, st, ss, r1, e1, c1, c3, fun hL p hp x m os hk hs => ?_, fun s hs r hr m ks kr => ?_,
    fun W hW hB hlate inp hin log hlog => ?_⟩
  · obtain ⟨a, b'⟩ := hkeep p hp x hk
    rw [c2]
    exact reduced_runs e2 hlow hL a (by simp [graph, b', kindShape, hs, object]) (by simp [kinds, b', hs, Signal.Arith])
  · obtain ⟨y, -, -, p1, p2, -, p3, p4⟩ := R.post s r m (hmail s hs m (.inl ks)) (hmail r hr m (.inr kr)) ks kr
    obtain ⟨k1, k2, -⟩ := (e4 W0).keep _ p1 (by rw [p2]; rfl)
    obtain ⟨-, k3, -⟩ := (e4 W0).keep _ p3 (by rw [p4]; rfl)
    obtain ⟨k0, -, -⟩ := (e4 W0).keep _ p3 (by rw [p4]; rfl)
    refine ⟨⟨y, k2.trans p2, k3.trans p4⟩, k1, k0, ?_, decide_eq_true_iff, fun hpath => decide_eq_true_iff.2 ?_⟩
    · rw [c2]
      exact write_runs e2 hlow k1 (k2.trans p2)
    · rw [c2]
      refine reads_idx e2 hlow k0 (k3.trans p4) k1 (k2.trans p2) ?_
      have key : ∀ a b, Path g' a b → ReflTransGen (fun a b => ∃ c ∈ M', c.src = a ∧ c.dst = b) a b := by
        intro a b h
        induction h with
        | refl => exact .refl
        | tail _ h ih =>
          obtain ⟨i, c, hc, rfl⟩ := h
          obtain ⟨h1, h2, -⟩ := e2.wired.mem_ins.1 hc
          exact ih.tail ⟨c, h1, rfl, h2⟩
      exact key _ _ hpath
  let W1 : Reduce.World α μ := { W with late := fun w r => decide ((ss.map (·.id)).idxOf r < (ss.map (·.id)).idxOf w) }
  have hvia : W1.via wr rd = W := by
    have : W.late = late := by funext s r; exact hlate s r
    cases W
    simp only at this
    subst this
    rfl
  refine ⟨?_, fun v hv junk b => ?_⟩
  · obtain ⟨v2, hv2⟩ := reduced_signals e2 hlow W1 (fun p => hW p) hB (Reduce.rename ρ log) (fun w r => by rw [← c2])
    obtain ⟨v1, hv1, -⟩ := ((e4 W1).signals log fun t e he => Nat.lt_of_lt_of_le (h.below _ (hlog t e he)) R.le).2 v2 hv2
    obtain ⟨v, hv, -⟩ := ((r4 W1).signals log fun t e he => h.below _ (hlog t e he)).2 v1 hv1
    rw [hvia] at hv
    exact ⟨v, hv⟩
  obtain ⟨v1, hv1, hal⟩ := ((r4 W1).signals log fun t e he => h.below _ (hlog t e he)).1 v (by rw [hvia]; exact hv)
  obtain ⟨v', hv', hag⟩ := ((e4 W1).signals log fun t e he => Nat.lt_of_lt_of_le (h.below _ (hlog t e he)) R.le).1 v1 hv1
  have hsame : ∀ p ∈ g.ids, ∀ x, g.kind p = .other x → ∀ i t, Reduce.inSum v' (g'.ins p i) t = Reduce.inSum v (g.ins p i) t := by
    intro p hp x hx i t
    obtain ⟨h1, h2⟩ := hkeep1 p hp x hx
    exact ((hag p h1 (by rw [h2]; rfl)).2 i t).1.trans ((hal p hp h1).2 i t).1
  obtain ⟨hp1, hp2⟩ := reduced_plays W1 hW hB (Reduce.rename ρ log) e2 hlow inp
    (fun p hp x ch hk hs => hin p (hback p hp x hk).1 x ch (hback p hp x hk).2 hs) hv' c1 (fun _ _ => rfl) junk b
  have hF : compute (B := B) W1 (Reduce.rename ρ log) sh g' (later sh (g', n')).1.kind =
      compute W (Reduce.rename ρ log) sh g' (later sh (g', n')).1.kind := rfl
  rw [hF] at hp1 hp2
  refine ⟨fun c s => ?_, fun p hp hps x m os s hk hs => ?_⟩
  · rw [hp2 c, patchOutput_sends e2 hlow]
    simp only [sends]
    have perm : (g'.ids.filter (isOutput sh g' c)).Perm (g.ids.filter (isOutput sh g c)) := by
      refine (List.perm_ext_iff_of_nodup (e2.nodup.filter _) (h.nodup.filter _)).2 fun p => ?_
      simp only [List.mem_filter]
      unfold isOutput
      constructor
      · rintro ⟨h1, h2⟩
        cases hk : g'.kind p <;> rw [hk] at h2 <;> first
          | (simp at h2; done)
          | skip
        obtain ⟨a, b⟩ := hback p h1 _ hk
        exact ⟨a, by rw [b]; exact h2⟩
      · rintro ⟨h1, h2⟩
        cases hk : g.kind p <;> rw [hk] at h2 <;> first
          | (simp at h2; done)
          | skip
        obtain ⟨a, b⟩ := hkeep p h1 _ hk
        exact ⟨a, by rw [b]; exact h2⟩
    rw [(perm.map _).sum_eq]
    congr 1
    refine List.map_congr_left fun p hp => ?_
    obtain ⟨h1, h2⟩ := List.mem_filter.1 hp
    unfold isOutput at h2
    cases hk : g.kind p <;> rw [hk] at h2 <;> first
      | (simp at h2; done)
      | skip
    exact hsame p h1 _ hk 0 _
  · obtain ⟨a, b'⟩ := hkeep p hp x hk
    have hsh : kindShape (sh p) (g'.kind p) = .object m os s := by rw [b']; exact hs
    rw [hp1 p a hps ?_]
    · refine List.map_congr_left fun b' _ => ?_
      rw [inputs_object e2 v' hsh]
      refine List.map_congr_left fun i _ => ?_
      funext s
      exact hsame p hp x hk i _
    · simp only [graph, hsh, object, Signal.dacChan]
      split
      · rename_i l hl2
        have : l ∈ List.mapIdx (fun j ty => (⟨ty, (g'.outs p j).length, .zero⟩ : Signal.Outlet)) os := by rw [hl2]; simp
        obtain ⟨i, hi, rfl⟩ := List.mem_mapIdx.1 this
        simp
      · rfl

end

end Verif.Whole
