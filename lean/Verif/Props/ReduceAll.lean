import Verif.Props.ReduceObj
import Mathlib.Algebra.Field.Rat
/-!
# C58: the theorems

The specification is in `Verif.Props.Reduce`: `Solves` (signals of a patch), `Agree`, `Quiet`, `Dead`, `Stands` (messages),
`Ready` (which patches).
-/
namespace Verif.Reduce

variable {α μ : Type} [DecidableEq α] [Field α]

/-- the world does not matter for the structure of the result -/
theorem reduce_ok {T : Option Typing} {g : Graph α} {n : Nat} {M : Multiset Conn} (h : ReadyT T g n M) :
    ∃ g' n' M' ρ δ, g.reduce n = some (g', n') ∧ ReadyT T g' n' M' ∧ (∀ p ∈ g'.ids, (g'.kind p).lang = false) ∧
      ∀ W : World α μ, Sim W g g' n n' ρ δ := by
  obtain ⟨g', n', M', ρ, δ, e1, e2, e3, e4⟩ := reduceObjs_ok (μ := μ) g.ids g n M h h.nodup (fun _ hp => hp)
  refine ⟨g', n', M', ρ, δ, e1, e2, fun p hp => ?_, e4⟩
  cases hl : (g'.kind p).lang with
  | false => rfl
  | true => obtain ⟨h1, h2⟩ := e3 p hp hl; exact absurd h1 h2

/-- **C58.**  Every patch that can be compiled is compiled; no operator of the patch is left; every other object is there,
unchanged.  An operator on messages is replaced by an object that computes the same (or nothing depends on it); messages go the
same ways in the same order.  The signals of the patch are those of the result: whatever solves the one gives a solution of the
other with the same signals at all outlets of the other objects, and the same signals and messages at all their inlets.
(Missing: multiplication by the constant 0, loops of signals, an object connected to itself.) -/
theorem operators_reduced_partial {g : Graph α} {n : Nat} {M : Multiset Conn} (h : Ready g n M) :
    ∃ g' n' ρ δ, g.reduce n = some (g', n') ∧
      (∀ p ∈ g'.ids, (g'.kind p).lang = false) ∧
      (∀ p ∈ g.ids, (g.kind p).lang = false → p ∈ g'.ids ∧ g'.kind p = g.kind p ∧ ρ p = p) ∧
      (∀ d ∈ g.ids, (g.kind d).lang → Quiet g d → Dead g d ∨ (ρ d ∈ g'.ids ∧ Stands (g.kind d) (g'.kind (ρ d)))) ∧
      (∀ p ∈ g.ids, ∀ j, ctl (g'.outs (ρ p) j) = (ctl (g.outs p j)).filterMap δ) ∧
      (∀ p ∈ g.ids, ∀ j, ∀ c ∈ ctl (g.outs p j), (δ c = none → Dead g c.dst) ∧
        ∀ c', δ c = some c' → (g.kind c.dst).lang = false ∨ Quiet g c.dst → c'.dst = ρ c.dst ∧ c'.inlet = c.inlet) ∧
      ∀ (W : World α μ) (log : Nat → List (Sent μ)), (∀ t, ∀ e ∈ log t, e.src ∈ g.ids) →
        (∀ v, Solves W g log v → ∃ v', Solves W g' (rename ρ log) v' ∧ Agree g g' ρ log v v') ∧
        ∀ v', Solves W g' (rename ρ log) v' → ∃ v, Solves W g log v ∧ Agree g g' ρ log v v' := by
  obtain ⟨g', n', M', ρ, δ, e1, e2, e3, e4⟩ := reduce_ok (μ := μ) h
  have S := e4 ⟨fun _ a _ => a, fun _ a => a, fun _ => none, fun _ _ _ _ _ => 0, fun _ _ => false, 1⟩
  refine ⟨g', n', ρ, δ, e1, e3, S.keep, ?_, fun p hp j => S.order p (h.below p hp) j, ?_, ?_⟩
  · intro d hd hl hq
    rcases S.quiet d hd hl hq with ⟨-, f⟩ | ⟨f1, ⟨f2, f3, -⟩ | f⟩
    · exact .inl f
    · have := e3 _ f1
      rw [f3, f2, hl] at this
      simp at this
    · exact .inr ⟨f1, f⟩
  · intro p hp j c hc
    have := S.moved p (h.below p hp) j c hc
    exact ⟨this.1, fun c' hc' => (this.2 c' hc').2⟩
  · intro W log hlog
    exact (e4 W).signals log (fun t e he => h.below _ (hlog t e he))

/-! ### every patch has signals -/

/-- one round of evaluation -/
def round (W : World α μ) (g : Graph α) (log : Nat → List (Sent μ)) (v : Nat → Nat → Nat → α) (p j t : Nat) : α :=
  match g.kind p with
  | .other _ => W.beh p (fun i t => inSum v (g.ins p i) t) (fun i t => received (log t) (g.ins p i)) j t
  | _ => rhs W g log v p t

theorem round_congr {W : World α μ} {g : Graph α} {log : Nat → List (Sent μ)} {v v' : Nat → Nat → Nat → α} {p : Nat}
    (h : ∀ i, ∀ c ∈ g.ins p i, c.ty = .f → v' c.src = v c.src) : round W g log v' p = round W g log v p := by
  funext j t
  unfold round
  split
  · have : (fun i t => inSum v' (g.ins p i) t) = fun i t => inSum v (g.ins p i) t := by
      funext i t
      exact inSum_congr fun c hc hf => by rw [h i c hc hf]
    rw [this]
  · exact rhs_congr fun i c hc hf => by rw [h i c hc hf]

/-- every patch of C58 without `receive~` has signals, for every behaviour of the other objects and all messages -/
theorem signals_exist {g : Graph α} {n : Nat} {M : Multiset Conn} (h : Ready g n M)
    (h' : ∀ p ∈ g.ids, (∀ m, g.kind p ≠ .receive m) ∧ g.kind p ≠ .varSig) (W : World α μ)
    (log : Nat → List (Sent μ)) : ∃ v, Solves W g log v := by
  obtain ⟨rk, hrk⟩ := h.rank
  let cnt : Nat → Nat := fun p => (g.ids.filter fun q => rk q < rk p).length
  have hcnt : ∀ c ∈ M, c.ty = .f → cnt c.src < cnt c.dst := by
    intro c hc hf
    have h1 := (hrk c hc).1 hf
    have h2 : (g.ids.filter fun q => rk q < rk c.src).Sublist ((g.ids.filter fun q => rk q < rk c.dst).erase c.src) := by
      have h3 : (g.ids.filter fun q => rk q < rk c.src).Sublist (g.ids.filter fun q => rk q < rk c.dst) := by
        refine List.monotone_filter_right _ fun q hq => ?_
        simp only [decide_eq_true_eq] at hq ⊢
        omega
      have h4 : c.src ∉ g.ids.filter fun q => rk q < rk c.src := by simp
      rw [← List.erase_of_not_mem h4]
      exact h3.erase _
    have h5 : c.src ∈ g.ids.filter fun q => rk q < rk c.dst := by
      rw [List.mem_filter]; exact ⟨(h.ends c hc).1, by simpa using h1⟩
    have h6 := h2.length_le
    rw [List.length_erase_of_mem h5] at h6
    have h7 := List.length_pos_of_mem h5
    show (g.ids.filter fun q => rk q < rk c.src).length < (g.ids.filter fun q => rk q < rk c.dst).length
    omega
  let it : Nat → Nat → Nat → Nat → α := fun m => Nat.rec (fun _ _ _ => 0) (fun _ v => round W g log v) m
  have hit : ∀ m, it (m + 1) = round W g log (it m) := fun m => rfl
  have stable : ∀ m p, cnt p < m → it (m + 1) p = it m p := by
    intro m
    induction m with
    | zero => intro p hp; omega
    | succ m ih =>
      intro p hp
      rw [hit (m + 1), hit m]
      refine round_congr fun i c hc hf => ?_
      obtain ⟨h1, h2, -⟩ := h.wired.mem_ins.1 hc
      have := hcnt c h1 hf
      rw [h2] at this
      rw [← hit m]
      exact ih _ (by omega)
  refine ⟨it (g.ids.length + 1), fun p hp => ?_⟩
  have hs : it (g.ids.length + 1 + 1) p = it (g.ids.length + 1) p := stable (g.ids.length + 1) p (by
    have : cnt p ≤ g.ids.length := List.length_filter_le _ _
    omega)
  rw [hit (g.ids.length + 1)] at hs
  by_cases ho : ∃ s, g.kind p = .other s
  · obtain ⟨s, ho⟩ := ho
    unfold Obeys
    rw [ho]
    intro j t
    rw [← hs, round, ho]
  · refine obeys_of_rhs (fun s hk => ho ⟨s, hk⟩) (h' p hp).1 (fun y hy => (h.reads p hp y hy).2.resolve_right fun e => (h' y (h.reads p hp y hy).1).2 e.1) fun t => ?_
    rw [← hs, round]
    split
    · rename_i s hk
      exact absurd ⟨s, hk⟩ ho
    · rfl

/-! ### a patch -/

/-- a graph from its list of connections -/
def ofConns (ids : List Nat) (kind : Nat → Kind α) (cs : List Conn) : Graph α where
  ids := ids
  kind := kind
  ins d i := cs.filter (·.into d i)
  outs p j := cs.filter (·.from p j)

theorem ofConns_wired (ids : List Nat) (kind : Nat → Kind α) (cs : List Conn) : Wired (ofConns ids kind cs) ↑cs :=
  ⟨fun p j => (Multiset.filter_coe _ _).symm, fun p j => (Multiset.filter_coe _ _).symm⟩

namespace Example

/-- `[osc~]` (0) into `[*~ 3]` (1), whose right inlet gets messages from `[r x]` (2); `[+~ 0]` (3), `[*~ -1]` (4), `[dac~]` (5);
`[r x]` also goes to `[+ 1]` (6), `[abs]` (7), `[print]` (8) and to `[- 2]` (9), which is connected to nothing; `[sig~ 7]` (10)
goes to `[dac~]` -/
def kind : Nat → Kind Rat
  | 1 => .binop "*" 3
  | 3 => .binop "+" 0
  | 4 => .binop "*" (-1)
  | 6 => .binop "+" 1
  | 7 => .unop "abs"
  | 9 => .binop "-" 2
  | 10 => .var 7
  | _ => .other ""

/-- its connections -/
def conns : List Conn := [⟨0, 0, 1, 0, .f⟩, ⟨2, 0, 1, 1, .c⟩, ⟨1, 0, 3, 0, .f⟩, ⟨3, 0, 4, 0, .f⟩, ⟨4, 0, 5, 0, .f⟩, ⟨3, 0, 5, 1, .f⟩,
  ⟨2, 0, 9, 0, .c⟩, ⟨2, 0, 6, 0, .c⟩, ⟨6, 0, 7, 0, .c⟩, ⟨7, 0, 8, 0, .c⟩, ⟨10, 0, 5, 1, .f⟩]

/-- the patch -/
def patch : Graph Rat := ofConns (List.range 11) kind conns

theorem ready : Ready patch 11 ↑conns where
  wired := ofConns_wired _ _ _
  nodup := List.nodup_range
  below o ho := List.mem_range.1 ho
  ends := by
    have : ∀ c ∈ conns, c.src ∈ List.range 11 ∧ c.dst ∈ List.range 11 := by decide
    exact this
  loop := by
    have : ∀ c ∈ conns, c.src ≠ c.dst := by decide
    exact this
  floats := by
    have : ∀ c ∈ conns, c.ty ≠ .i := by decide
    exact this
  rank := ⟨fun p => if p = 10 then 0 else p, by
    have : ∀ c ∈ conns, c.ty = .f → (if c.src = 10 then (0 : Int) else c.src) < (if c.dst = 10 then (0 : Int) else c.dst) := by decide
    exact fun c hc => ⟨this c hc, (fun h => absurd h (by simp)), fun _ h => absurd h (by simp)⟩⟩
  typed _ h := absurd h (by simp)
  reads o ho y hy := by
    have : ∀ o y, kind o ≠ .varRead y := by intro o y; unfold kind; split <;> simp
    exact absurd hy (this o y)
  lets o ho hl := by
    have h1 : ∀ o < 11, ∀ c ∈ conns, (kind o).lang → c.dst = o → c.inlet < (kind o).numInlets := by decide
    have h2 : ∀ o < 11, ∀ c ∈ conns, (kind o).lang → c.src = o → c.outlet = 0 := by decide
    exact ⟨fun c hc h => h1 o (List.mem_range.1 ho) c hc hl h, fun c hc h => h2 o (List.mem_range.1 ho) c hc hl h⟩
  fits o ho := by
    have ho' := List.mem_range.1 ho
    have f : ∀ o < 11, o ∈ [1, 3, 4, 6, 7, 9, 10] ∨ (kind o).lang = false := by decide
    rcases f o ho' with h | h
    · have n1 : (binName "*" "~f").isSome = true := by decide +kernel
      have n2 : (binName "+" "~f").isSome = true := by decide +kernel
      have n3 : (binName "+" "_k").isSome = true := by decide +kernel
      have n4 : (unName "abs" "").isSome = true := by decide +kernel
      simp only [List.mem_cons, List.not_mem_nil, or_false] at h
      rcases h with rfl | rfl | rfl | rfl | rfl | rfl | rfl
      · exact .inr (.inl ⟨by decide, n1, .inl ⟨by decide, .inr (.inl (by decide))⟩⟩)
      · exact .inr (.inl ⟨by decide, n2, .inl ⟨by decide, .inr (.inr ⟨by decide, by decide⟩)⟩⟩)
      · exact .inr (.inl ⟨by decide, n1, .inl ⟨by decide, .inr (.inr ⟨by decide, by decide⟩)⟩⟩)
      · exact .inr (.inr ⟨by decide, by decide, .inr ⟨by decide, n3⟩⟩)
      · exact .inr ⟨by decide, n4, .inr (by decide)⟩
      · exact .inl (by decide)
      · exact ⟨.inl (by decide), .inr (.inr (by decide))⟩
    · unfold Fits
      have hk : patch.kind o = kind o := rfl
      cases hk' : patch.kind o with
      | binop op k => rw [← hk, hk'] at h; simp [Kind.lang] at h
      | unop op => rw [← hk, hk'] at h; simp [Kind.lang] at h
      | var op => rw [← hk, hk'] at h; simp [Kind.lang] at h
      | _ => trivial

/-- what becomes of it: the signals at the right inlet of `[dac~]` come from `__mul~f` and `__var_k~f` -/
theorem result : (patch.reduce 11).map (fun r => (r.1.ids, (r.1.ins 5 1).map fun c => (c.src, c.outlet))) =
    some ([0, 2, 5, 8, 11, 12, 13, 14, 15, 16, 17], [(11, 0), (17, 0)]) := by decide +kernel

end Example

/-! ### where it fails -/

/-- `[osc~]` (0), `[*~ 0]` (1), `[+~ 5]` (2), `[dac~]` (3) in a row -/
def zeroPatch : Graph Rat := ofConns [0, 1, 2, 3] (fun p => if p = 1 then .binop "*" 0 else if p = 2 then .binop "+" 5 else .other "")
  [⟨0, 0, 1, 0, .f⟩, ⟨1, 0, 2, 0, .f⟩, ⟨2, 0, 3, 0, .f⟩]

/-- in the patch `[dac~]` gets the number 5; in the compiled graph nothing is connected to it -/
theorem zero_kills_neighbour (W : World Rat μ) (log : Nat → List (Sent μ)) :
    (∀ v, Solves W zeroPatch log v → ∀ t, inSum v (zeroPatch.ins 3 0) t = 5) ∧
    (zeroPatch.reduce 4).map (fun r => (r.1.ids, r.1.ins 3 0)) = some ([0, 3], []) := by
  constructor
  · intro v hv t
    have h1 : zeroPatch.ins 3 0 = [⟨2, 0, 3, 0, .f⟩] := by decide
    have h2 : zeroPatch.ins 2 0 = [⟨1, 0, 2, 0, .f⟩] := by decide
    have h3 : zeroPatch.ins 2 1 = [] := by decide
    have h4 : zeroPatch.ins 1 1 = [] := by decide
    have h5 : zeroPatch.ins 1 0 = [⟨0, 0, 1, 0, .f⟩] := by decide
    have o2 := hv 2 (by decide)
    have o1 := hv 1 (by decide)
    have k2 : zeroPatch.kind 2 = .binop "+" 5 := rfl
    have k1 : zeroPatch.kind 1 = .binop "*" 0 := rfl
    unfold Obeys at o1 o2
    rw [k1] at o1
    rw [k2] at o2
    simp only [h4, h5, operand_nil] at o1
    simp only [h2, h3, operand_nil] at o2
    have o1 := o1 (.inl rfl) t
    have o2 := o2 (.inl rfl) t
    have e : operand W v log 0 [⟨1, 0, 2, 0, .f⟩] t = v 1 0 t := by
      rw [operand, if_pos (by decide), inSum_single rfl]
    rw [e, o1] at o2
    rw [h1, inSum_single rfl]
    show v 2 0 t = 5
    rw [o2]
    simp [World.op]
  · decide +kernel

/-- `[r x]` (0) into `[+ 1]` (1), which is also connected to itself, and `[print]` (2) -/
def loopPatch : Graph Rat := ofConns [0, 1, 2] (fun p => if p = 1 then .binop "+" 1 else .other "")
  [⟨0, 0, 1, 0, .c⟩, ⟨1, 0, 1, 0, .c⟩, ⟨1, 0, 2, 0, .c⟩]

/-- the compiler raises an exception -/
theorem loop_raises : (loopPatch.reduce 3).isNone = true := by decide +kernel

end Verif.Reduce
