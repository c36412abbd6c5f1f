import Verif.Props.Fma
import Mathlib.Tactic.IntervalCases
/-!
# C30–C34 together: from a patch with implicit sums to the process list

The passes `cascade_expansion`, `fma_replacement`, ordering and buffer assignment, in the order of `HeavyGraph.prepare`
(HeavyGraph.py:455-472), and the execution of one block.
-/
namespace Verif.Signal
open Relation

variable {α : Type}

/-- the patch after the expansion of implicit sums -/
def expand (g : Graph) (K : Nat → Kind) (n : Nat) : KGraph := ⟨(g.cascade n).1, fun p => if n ≤ p then .add else K p⟩

/-- the patch after both rewrites -/
def rewrite (g : Graph) (K : Nat → Kind) (n : Nat) : KGraph × Nat := (expand g K n).fma (g.cascade n).2

/-- well-formed typed patches -/
structure PatchWF (g : Graph) (K : Nat → Kind) : Prop where
  wf : MWF g
  closed : Closed g
  nocycle : NoCycle g
  arity : ∀ p ∈ g.ids, Arith (K p) → (g.obj p).inlets.length = 2 ∧ (∃ out, (g.obj p).outlets = [out] ∧ out.ty = some .f) ∧
    (g.obj p).signal = true
  sig : ∀ p ∈ g.ids, ∀ l ∈ (g.obj p).inlets, ∀ c ∈ l.conns, Arith (K c.src) → c.isSignal = true

theorem expand_kwf {g : Graph} {K : Nat → Kind} {n : Nat} (hn : ∀ p ∈ g.ids, p < n) (w : PatchWF g K) :
    KWF (expand g K n) ∧ Closed (expand g K n).g ∧ NoCycle (expand g K n).g := by
  obtain ⟨one, -⟩ := cascade_correct g n hn
  obtain ⟨h1, -, -⟩ := cascadeObjs_ok g.ids g n hn fun _ h => h
  have h1 : Casc g n (g.cascade n).1 (g.cascade n).2 := h1
  obtain ⟨new, eids, hnew⟩ := h1.ref.ids
  have wf' := h1.ref.wf w.wf
  refine ⟨⟨⟨wf'.nodup, wf'.kinds, one, wf'.source, wf'.presets, wf'.count⟩, fun p hp ha => ?_, fun p hp l hl c hc ha => ?_⟩,
    h1.ref.closed w.closed, h1.ref.nocycle w.closed w.nocycle⟩
  · have hp' : p ∈ (g.cascade n).1.ids := hp
    rw [eids] at hp'
    rcases List.mem_append.mp hp' with h | h
    · have : ¬ n ≤ p := by have := hn p h; omega
      simp only [expand, if_neg this] at ha ⊢
      rw [h1.ref.inlets p h, h1.ref.outlets p h, h1.ref.signal p h]
      exact w.arity p h ha
    · obtain ⟨-, -, a3, a4, a5⟩ := hnew p h
      exact ⟨a3, ⟨_, a4, rfl⟩, a5⟩
  · rcases h1.ref.conns p hp l hl c hc with h | ⟨o0, ho0, l0, hl0, hc0⟩
    · exact h
    · have hcs := w.closed o0 ho0 _ ⟨l0, hl0, c, hc0, rfl⟩
      have : ¬ n ≤ c.src := by have := hn _ hcs; omega
      simp only [expand, if_neg this] at ha
      exact w.sig o0 ho0 l0 hl0 c hc0 ha

/-- **the compiler is correct** for one graph: let `env` be the signals of a patch (sums at the inlets, products, sums and
differences as in the patch).  Then the rewritten patch compiles, and the process list, run for one block with arbitrary
contents of the temporary buffers, leaves in every output channel what the patch sends to it, and gives every object that is
not fused away exactly the signals that the patch gives it. -/
theorem compiler_correct [CommRing α] (g : Graph) (K : Nat → Kind) (n : Nat) (hn : ∀ p ∈ g.ids, p < n) (w : PatchWF g K)
    (F : Nat → List α → List α) (inp : Nat → α) (env : Nat → Nat → α) (flow : SumFlow g F inp env)
    (hF : Interp (rewrite g K n).1.kind (rewrite g K n).2 F)
    (hdac : ∀ o ∈ g.ids, (dacChan (g.obj o)).isSome → ∀ x y, F o [x, y] = [x + y])
    (hlen : ∀ o ∈ g.ids, ∀ l, l.length = (g.obj o).inlets.length → (F o l).length = (g.obj o).outlets.length)
    (junk : Ty → Nat → α) :
    ∃ st ss, (rewrite g K n).1.g.compile = .ok (st, ss) ∧ ss.map (·.id) = (rewrite g K n).1.g.signalOrder ∧
      (∀ c, (exec F (Store.start inp junk) ss).1 (.output c) = patchOutput g env c) ∧
      (∀ x ∈ (exec F (Store.start inp junk) ss).2, x.1 ∈ g.ids → dacChan (g.obj x.1) = none →
        x.2 = (g.obj x.1).inlets.map (inletSum env)) ∧
      (∀ x ∈ ss, ∀ t i, Buf.tmp t i ∈ x.ins ∨ Buf.tmp t i ∈ x.outs → i < numBuffers (st.pool t)) := by
  obtain ⟨kwf1, cl1, nc1⟩ := expand_kwf hn w
  obtain ⟨h1, -, -⟩ := cascadeObjs_ok g.ids g n hn fun _ h => h
  have h1 : Casc g n (g.cascade n).1 (g.cascade n).2 := h1
  have one := kwf1.wf.one
  have hn1 : ∀ p ∈ (expand g K n).g.ids, p < (g.cascade n).2 := h1.ref.lt hn
  have r := fma_correct (expand g K n) (g.cascade n).2 hn1 kwf1 cl1 nc1.sig
  have r : KRef (expand g K n) (g.cascade n).2 (rewrite g K n).1 (rewrite g K n).2 := r
  generalize rewrite g K n = kr at hF r ⊢
  obtain ⟨k2, n2⟩ := kr
  simp only at hF r ⊢
  obtain ⟨new, eids, hnew⟩ := h1.ref.ids
  have hF1 : Interp (expand g K n).kind (g.cascade n).2 F := hF.mono r.le r.kind
  have hadd : ∀ o, n ≤ o → o < (g.cascade n).2 → ∀ x y, F o [x, y] = [x + y] := by
    intro o ho ho' x y
    exact hF1.add o ho' (by simp [expand, ho]) x y
  obtain ⟨env1, he1, hf1⟩ := h1.ref.fwd F inp env hadd w.closed flow
  have hval1 : ∀ q ∈ (g.cascade n).1.ids, ((g.cascade n).1.obj q).inlets.map (inletVal env1) =
      ((g.cascade n).1.obj q).inlets.map (inletSum env1) :=
    fun q hq => List.map_congr_left fun l hl => inletVal_eq env1 l (one q hq l hl)
  have flow1 : Flow (expand g K n).g F inp env1 :=
    ⟨hf1.ext, fun o ho hs hd k v hv => hf1.obj o ho hs hd k v (by rw [← hval1 o ho]; exact hv)⟩
  obtain ⟨env2, he2, flow2, hvals⟩ := r.fwd F inp env1 hF flow1
  -- signals at the inlets of old objects
  have hsame : ∀ q ∈ g.ids, (g.obj q).inlets.map (inletSum env1) = (g.obj q).inlets.map (inletSum env) := by
    intro q hq
    refine List.map_congr_left fun x hx => ?_
    unfold inletSum
    congr 1
    refine List.map_congr_left fun y hy => ?_
    rw [he1 y.src (hn _ (w.closed q hq _ ⟨x, hx, y, (List.mem_filter.mp hy).1, rfl⟩))]
  have hsums1 : ∀ q ∈ g.ids, ((g.cascade n).1.obj q).inlets.map (inletSum env1) = (g.obj q).inlets.map (inletSum env) :=
    fun q hq => ((h1.ref.back F inp env1 hadd hf1).2 q hq).trans (hsame q hq)
  have hmem1 : ∀ q ∈ g.ids, q ∈ (g.cascade n).1.ids := fun q hq => by rw [eids]; simp [hq]
  have hlt1 : ∀ q ∈ g.ids, q < (g.cascade n).2 := fun q hq => Nat.lt_of_lt_of_le (hn q hq) h1.ref.le
  have hfinal : ∀ q ∈ g.ids, q ∈ k2.g.ids → (k2.g.obj q).inlets.map (inletVal env2) = (g.obj q).inlets.map (inletSum env) := by
    intro q hq hq2
    rw [hvals q hq2 (hlt1 q hq)]
    exact (hval1 q (hmem1 q hq)).trans (hsums1 q hq)
  have hout : ∀ q ∈ g.ids, q ∈ k2.g.ids → (k2.g.obj q).outlets = (g.obj q).outlets ∧ (k2.g.obj q).signal = (g.obj q).signal ∧
      (k2.g.obj q).inlets.length = (g.obj q).inlets.length := by
    intro q hq hq2
    obtain ⟨-, a2, a3, a4⟩ := r.kept q hq2 (hlt1 q hq)
    exact ⟨a2.trans (h1.ref.outlets q hq), a3.trans (h1.ref.signal q hq), a4.trans (h1.ref.inlets q hq)⟩
  have hdc : ∀ q ∈ g.ids, q ∈ k2.g.ids → dacChan (k2.g.obj q) = dacChan (g.obj q) :=
    fun q hq hq2 => by simp [dacChan, (hout q hq hq2).1]
  -- classification of the objects that remain
  have hcls : ∀ q ∈ k2.g.ids, q ∈ g.ids ∨
      ((k2.g.obj q).inlets.length = 2 ∧ (∃ cn, (k2.g.obj q).outlets = [⟨some .f, cn, .zero⟩]) ∧ ∀ x y, F q [x, y] = [x + y]) ∨
      ((k2.g.obj q).inlets.length = 3 ∧ (∃ cn, (k2.g.obj q).outlets = [⟨some .f, cn, .zero⟩]) ∧ ∀ x y z, (F q [x, y, z]).length = 1) := by
    intro q hq
    by_cases e : q < (g.cascade n).2
    · obtain ⟨a1, a2, a3, a4⟩ := r.kept q hq e
      have a1' : q ∈ (g.cascade n).1.ids := a1
      rw [eids] at a1'
      rcases List.mem_append.mp a1' with h | h
      · exact Or.inl h
      · obtain ⟨b1, b2, b3, b4, b5⟩ := hnew q h
        refine Or.inr (Or.inl ⟨a4.trans b3, ⟨1, a2.trans b4⟩, hadd q b1 e⟩)
    · obtain ⟨b1, b2, b3⟩ := r.new q hq (by omega)
      refine Or.inr (Or.inr ⟨b2, b3, fun x y z => ?_⟩)
      have hlt2 := r.lt hn1 q hq
      rcases b1 with b1 | b1
      · rw [hF.fma q hlt2 b1]; rfl
      · rw [hF.fms q hlt2 b1]; rfl
  have hnodac : ∀ q ∈ k2.g.ids, q ∉ g.ids → dacChan (k2.g.obj q) = none := by
    intro q hq hqg
    rcases hcls q hq with h | ⟨-, ⟨cn, h⟩, -⟩ | ⟨-, ⟨cn, h⟩, -⟩
    · exact absurd h hqg
    · simp [dacChan, h]
    · simp [dacChan, h]
  obtain ⟨st, ss, e1, e2, e3, e4, e5, -⟩ := compile_correct k2.g r.kwf.wf F inp env2 flow2
    (fun o ho hd => by
      by_cases hog : o ∈ g.ids
      · exact hdac o hog (by rw [← hdc o hog ho]; exact hd)
      · rw [hnodac o ho hog] at hd; simp at hd)
    (fun o ho l hl => by
      rcases hcls o ho with h | ⟨h2, ⟨cn, h3⟩, h4⟩ | ⟨h2, ⟨cn, h3⟩, h4⟩
      · obtain ⟨a1, -, a3⟩ := hout o h ho
        rw [a1]
        exact hlen o h l (by rw [hl, a3])
      · rw [h2] at hl
        rw [h3]
        match l, hl with
        | [x, y], _ => rw [h4]; rfl
      · rw [h2] at hl
        rw [h3]
        match l, hl with
        | [x, y, z], _ => exact h4 x y z)
    r.closed (r.nocycle nc1) junk
  refine ⟨st, ss, e1, e2, fun c => ?_, fun x hx hxg hd => ?_, e5⟩
  · have mw : MWF k2.g := ⟨r.kwf.wf.nodup, r.kwf.wf.kinds, r.kwf.wf.source, r.kwf.wf.presets, r.kwf.wf.count⟩
    rw [e4, outputSum]
    unfold patchOutput
    have hperm : (k2.g.signalOrder.filter fun o => dacChan (k2.g.obj o) = some c).Perm
        (g.ids.filter fun o => (g.obj o).signal ∧ dacChan (g.obj o) = some c) := by
      refine (dac_order k2.g mw r.closed c).trans ?_
      refine (List.perm_ext_iff_of_nodup (mw.nodup.filter _) (w.wf.nodup.filter _)).mpr fun o => ?_
      simp only [List.mem_filter, decide_eq_true_eq]
      constructor
      · rintro ⟨k1, k2', k3⟩
        by_cases hog : o ∈ g.ids
        · exact ⟨hog, by rw [← (hout o hog k1).2.1]; exact k2', by rw [← hdc o hog k1]; exact k3⟩
        · rw [hnodac o k1 hog] at k3; simp at k3
      · rintro ⟨k1, k2', k3⟩
        have hin : o ∈ k2.g.ids := by
          by_contra hno
          have := (r.gone o (hmem1 o k1) hno).2
          have hd : dacChan ((expand g K n).g.obj o) = dacChan (g.obj o) := by
            show dacChan ((g.cascade n).1.obj o) = _
            simp [dacChan, h1.ref.outlets o k1]
          rw [hd, k3] at this
          simp at this
        exact ⟨hin, by rw [(hout o k1 hin).2.1]; exact k2', by rw [hdc o k1 hin]; exact k3⟩
    refine ((hperm.map _).sum_eq).trans ?_
    congr 1
    refine List.map_congr_left fun o ho => ?_
    obtain ⟨ho1, ho2⟩ := List.mem_filter.mp (hperm.symm.subset ho)
    have hog := (List.mem_filter.mp ho).1
    have ho3 : o ∈ k2.g.ids := by
      obtain ⟨m', hv⟩ := order_visited k2.g r.closed
      exact hv.ids o (List.mem_filter.mp ho1).1
    rw [hfinal o hog ho3]
  · have hx2 : x.1 ∈ k2.g.ids := by
      have : x.1 ∈ ss.map (·.id) := by
        have hexec : ∀ (ss : List Step) (s : Store α), (exec F s ss).2.map (·.1) = ss.map (·.id) := by
          intro ss
          induction ss with
          | nil => exact fun _ => rfl
          | cons a ss ih => exact fun s => by simp [exec, ih]
        rw [← hexec ss (Store.start inp junk)]
        exact List.mem_map.mpr ⟨x, hx, rfl⟩
      rw [e2] at this
      obtain ⟨m', hv⟩ := order_visited k2.g r.closed
      exact hv.ids _ (List.mem_filter.mp this).1
    rw [e3 x hx (by rw [hdc x.1 hxg hx2]; exact hd), hfinal x.1 hxg hx2]

/-! ### the hypotheses can be met -/

/-- `[osc~]`, `[osc~]` (0, 1) into `[*~]` (2), `[*~]` and `[adc~ 1]` (4) into the left inlet of `[+~]` (3) and `[osc~]` 0 into its
right inlet, `[+~]` into `[dac~ 1]` (5) -/
def tune : Graph where
  ids := [0, 1, 2, 3, 4, 5]
  obj
    | 0 => ⟨[], [⟨some .f, 2, .zero⟩], true⟩
    | 1 => ⟨[], [⟨some .f, 1, .zero⟩], true⟩
    | 2 => ⟨[⟨[⟨0, 0, true⟩], .zero⟩, ⟨[⟨1, 0, true⟩], .zero⟩], [⟨some .f, 1, .zero⟩], true⟩
    | 3 => ⟨[⟨[⟨2, 0, true⟩, ⟨4, 0, true⟩], .zero⟩, ⟨[⟨0, 0, true⟩], .zero⟩], [⟨some .f, 1, .zero⟩], true⟩
    | 4 => ⟨[], [⟨some .f, 1, .input 0⟩], false⟩
    | 5 => dacObj [⟨3, 0, true⟩] 0
    | _ => ⟨[], [], false⟩

/-- the types -/
def tuneK : Nat → Kind
  | 2 => .mul
  | 3 => .add
  | 5 => .add
  | _ => .other

theorem tune_conn {o : Nat} {l : Inlet} (hl : l ∈ (tune.obj o).inlets) {c : Conn} (hc : c ∈ l.conns) :
    (o, c) ∈ [(2, (⟨0, 0, true⟩ : Conn)), (2, ⟨1, 0, true⟩), (3, ⟨2, 0, true⟩), (3, ⟨4, 0, true⟩), (3, ⟨0, 0, true⟩), (5, ⟨3, 0, true⟩)] := by
  match o, hl with
  | 0, hl => simp [tune] at hl
  | 1, hl => simp [tune] at hl
  | 2, hl => simp [tune] at hl; rcases hl with rfl | rfl <;> simp_all
  | 3, hl => simp [tune] at hl; rcases hl with rfl | rfl <;> simp_all <;> tauto
  | 4, hl => simp [tune] at hl
  | 5, hl => simp [tune, dacObj] at hl; rcases hl with rfl | rfl <;> simp_all
  | n + 6, hl => simp [tune] at hl

/-- along a connection this number grows -/
def tuneRank : Nat → Nat
  | 2 => 1
  | 3 => 2
  | 5 => 3
  | _ => 0

theorem tune_rank {p o : Nat} (h : Feeds tune p o) : tuneRank p < tuneRank o ∧ p ∈ tune.ids := by
  obtain ⟨l, hl, c, hc, rfl⟩ := h
  have := tune_conn hl hc
  simp only [List.mem_cons, Prod.mk.injEq, List.not_mem_nil, or_false] at this
  rcases this with ⟨rfl, rfl⟩ | ⟨rfl, rfl⟩ | ⟨rfl, rfl⟩ | ⟨rfl, rfl⟩ | ⟨rfl, rfl⟩ | ⟨rfl, rfl⟩ <;> decide

theorem tune_patch : PatchWF tune tuneK := by
  refine ⟨⟨by decide, ?_, ?_, ?_, ?_⟩, fun o _ p h => (tune_rank h).2, ?_, ?_, ?_⟩
  · intro o ho _
    simp [tune] at ho
    rcases ho with rfl | rfl | rfl | rfl | rfl | rfl
    · exact Or.inl (by decide)
    · exact Or.inl (by decide)
    · exact Or.inl (by decide)
    · exact Or.inl (by decide)
    · contradiction
    · exact Or.inr ⟨_, 0, rfl⟩
  · intro o ho l hl c hc hs
    have := tune_conn hl hc
    simp only [List.mem_cons, Prod.mk.injEq, List.not_mem_nil, or_false] at this
    rcases this with ⟨rfl, rfl⟩ | ⟨rfl, rfl⟩ | ⟨rfl, rfl⟩ | ⟨rfl, rfl⟩ | ⟨rfl, rfl⟩ | ⟨rfl, rfl⟩
    · exact ⟨by decide, _, rfl, Or.inl (by decide)⟩
    · exact ⟨by decide, _, rfl, Or.inl (by decide)⟩
    · exact ⟨by decide, _, rfl, Or.inl (by decide)⟩
    · exact ⟨by decide, _, rfl, Or.inr ⟨rfl, 0, rfl⟩⟩
    · exact ⟨by decide, _, rfl, Or.inl (by decide)⟩
    · exact ⟨by decide, _, rfl, Or.inl (by decide)⟩
  · intro p k out h t i
    have := List.mem_of_getElem? h
    match p, this with
    | 0, h => simp [tune] at h; subst h; simp
    | 1, h => simp [tune] at h; subst h; simp
    | 2, h => simp [tune] at h; subst h; simp
    | 3, h => simp [tune] at h; subst h; simp
    | 4, h => simp [tune] at h; subst h; simp
    | 5, h => simp [tune, dacObj] at h; subst h; simp
    | n + 6, h => simp [tune] at h
  · intro p hp k out h
    simp [tune] at hp
    rcases hp with rfl | rfl | rfl | rfl | rfl | rfl <;> (cases k with
      | zero => simp [tune, dacObj] at h; subst h; decide
      | succ k => simp [tune, dacObj] at h)
  · intro o _ pk hpk hr
    obtain ⟨l, hl, hm⟩ := List.mem_flatMap.mp hpk
    obtain ⟨c, hcm, rfl⟩ := List.mem_map.mp hm
    have h1 := (tune_rank ⟨l, hl, c, (List.mem_filter.mp hcm).1, rfl⟩).1
    have h2 : ∀ a b, Reach tune a b → tuneRank a ≤ tuneRank b := by
      intro a b h
      induction h with
      | refl => exact Nat.le_refl _
      | tail _ h ih => have := (tune_rank h).1; omega
    have := h2 _ _ hr
    simp only at this
    omega
  · intro p hp ha
    simp [tune] at hp
    rcases hp with rfl | rfl | rfl | rfl | rfl | rfl
    · simp [tuneK, Arith] at ha
    · simp [tuneK, Arith] at ha
    · exact ⟨rfl, ⟨_, rfl, rfl⟩, rfl⟩
    · exact ⟨rfl, ⟨_, rfl, rfl⟩, rfl⟩
    · simp [tuneK, Arith] at ha
    · exact ⟨rfl, ⟨_, rfl, rfl⟩, rfl⟩
  · intro p _ l hl c hc _
    have := tune_conn hl hc
    simp only [List.mem_cons, Prod.mk.injEq, List.not_mem_nil, or_false] at this
    rcases this with ⟨-, rfl⟩ | ⟨-, rfl⟩ | ⟨-, rfl⟩ | ⟨-, rfl⟩ | ⟨-, rfl⟩ | ⟨-, rfl⟩ <;> rfl

/-- constants 3 and 5, and arithmetic -/
def tuneF : Nat → List Int → List Int
  | 0, _ => [3]
  | 1, _ => [5]
  | 2, [x, y] => [x * y]
  | _, [x, y] => [x + y]
  | _, [x, y, z] => [x * y + z]
  | _, _ => [0]

/-- in this patch an `__add~f` is inserted (10) and the multiplication is fused with it (11) -/
example : (rewrite tune tuneK 10).1.g.ids = [0, 1, 3, 4, 5, 11] ∧ (rewrite tune tuneK 10).1.kind 11 = .fma := by decide

/-- with 7 at the input, 3 * 5 + 7 + 3 = 25 arrives at the output -/
example : ∃ st ss, (rewrite tune tuneK 10).1.g.compile = .ok (st, ss) ∧
    (exec tuneF (Store.start (fun _ => 7) fun _ _ => 99) ss).1 (.output 0) = 25 := by
  let env : Nat → Nat → Int := fun o _ => if o = 0 then 3 else if o = 1 then 5 else if o = 2 then 15 else if o = 3 then 25 else
    if o = 4 then 7 else 0
  have flow : SumFlow tune tuneF (fun _ => 7) env := by
    refine ⟨fun p hp k out ch h h' => ?_, fun o ho hs hd k v h => ?_⟩
    · simp [tune] at hp
      rcases hp with rfl | rfl | rfl | rfl | rfl | rfl <;> (cases k with
        | zero => simp [tune, dacObj] at h; subst h; first | (simp at h'; done) | rfl
        | succ k => simp [tune, dacObj] at h)
    · simp [tune] at ho
      rcases ho with rfl | rfl | rfl | rfl | rfl | rfl
      · cases k with
        | zero => simp [tune, tuneF] at h; rw [← h]; rfl
        | succ k => simp [tune, tuneF] at h
      · cases k with
        | zero => simp [tune, tuneF] at h; rw [← h]; rfl
        | succ k => simp [tune, tuneF] at h
      · cases k with
        | zero => simp [tune, tuneF, inletSum, env] at h; rw [← h]; rfl
        | succ k => simp [tune, tuneF] at h
      · cases k with
        | zero => simp [tune, tuneF, inletSum, env] at h; rw [← h]; rfl
        | succ k => simp [tune, tuneF] at h
      · exact absurd hs (by decide)
      · exact absurd hd (by decide)
  have hn2 : (rewrite tune tuneK 10).2 = 12 := by decide
  have hk : ∀ o < 12, (rewrite tune tuneK 10).1.kind o =
      [Kind.other, .other, .mul, .add, .other, .add, .other, .other, .other, .other, .add, .fma].getD o .other := by decide
  obtain ⟨st, ss, h1, -, h3, -⟩ := compiler_correct tune tuneK 10 (by decide) tune_patch tuneF (fun _ => 7) env flow
    (by
      rw [hn2]
      refine ⟨fun o ho e => ?_, fun o ho e => ?_, fun o ho e => ?_, fun o ho e => ?_, fun o ho e => ?_⟩ <;> rw [hk o ho] at e <;>
        interval_cases o <;> simp at e <;> intros <;> rfl)
    (fun o ho h x y => by
      simp [tune] at ho
      rcases ho with rfl | rfl | rfl | rfl | rfl | rfl
      iterate 5 exact absurd h (by decide)
      rfl)
    (fun o ho l hl => by
      simp [tune] at ho
      rcases ho with rfl | rfl | rfl | rfl | rfl | rfl
      · rfl
      · rfl
      all_goals match l, hl with
        | [x, y], _ => rfl
        | [], _ => rfl)
    fun _ _ => 99
  exact ⟨st, ss, h1, (h3 0).trans (by decide)⟩

end Verif.Signal
