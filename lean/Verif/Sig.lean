import Verif.Props.ReduceAll
import Mathlib.Analysis.SpecialFunctions.Log.Base
/-!
# Signal abstractions

The abstractions of hvcc/interpreters/pd2hv/libs/pd/ that make signals, as graphs of `Verif.Reduce` (C58: what such a graph computes is
what the compiled program computes), over the real numbers.
-/
namespace Verif.Sig
open Verif.Reduce

variable {μ : Type}

/-- a graph has signals if its signal connections have an order -/
theorem exists_signals (n : ℕ) (kind : ℕ → Kind ℝ) (cs : List Conn) (rk : ℕ → ℕ) (hrk : ∀ c ∈ cs, c.ty = .f → rk c.src < rk c.dst)
    (hk : ∀ p, (∀ m, kind p ≠ .receive m) ∧ ∀ m, kind p ≠ .varRead m) (hl : ∀ p < n, rk p ≤ n)
    (W : World ℝ μ) (log : ℕ → List (Sent μ)) : ∃ v, Solves W (ofConns (List.range n) kind cs) log v := by
  set g := ofConns (List.range n) kind cs with hg
  let it : ℕ → ℕ → ℕ → ℕ → ℝ := fun m => Nat.rec (fun _ _ _ => 0) (fun _ v => Reduce.round W g log v) m
  have hit : ∀ m, it (m + 1) = Reduce.round W g log (it m) := fun m => rfl
  have stable : ∀ m p, rk p < m → it (m + 1) p = it m p := by
    intro m
    induction m with
    | zero => intro p hp; omega
    | succ m ih =>
      intro p hp
      rw [hit (m + 1), hit m]
      refine round_congr fun i c hc hf => ?_
      obtain ⟨h1, h2⟩ := List.mem_filter.1 hc
      have h3 := hrk c h1 hf
      have h4 : c.dst = p := by
        have h5 : c.dst = p ∧ c.inlet = i := of_decide_eq_true h2
        exact h5.1
      rw [h4] at h3
      rw [← hit m]
      exact ih _ (by omega)
  refine ⟨it (n + 1), fun p hp => ?_⟩
  have hp' : p < n := List.mem_range.1 hp
  have hs : it (n + 1 + 1) p = it (n + 1) p := stable (n + 1) p (by have := hl p hp'; omega)
  rw [hit (n + 1)] at hs
  by_cases ho : ∃ s, g.kind p = .other s
  · obtain ⟨s, ho⟩ := ho
    unfold Obeys
    rw [ho]
    intro j t
    rw [← hs, Reduce.round, ho]
  · refine obeys_of_rhs (fun s e => ho ⟨s, e⟩) (hk p).1 (fun y hy => absurd hy ((hk p).2 y)) fun t => ?_
    rw [← hs, Reduce.round]
    split
    · rename_i s e
      exact absurd ⟨s, e⟩ ho
    · rfl

@[simp] theorem held_nil (W : World ℝ μ) (k : ℝ) (log : List (Sent μ)) : held W k (received log []) = k := by
  have : received log [] = [] := by unfold received; induction log <;> simp_all
  rw [this]; rfl

/-- the messages from one outlet -/
theorem received_one (log : List (Sent μ)) (a b c d : ℕ) :
    received log [⟨a, b, c, d, .c⟩] = (log.filter fun e => e.src = a ∧ e.outlet = b).map (·.msg) := by
  unfold received
  induction log with
  | nil => rfl
  | cons e l ih =>
    rw [List.flatMap_cons, ih]
    by_cases h : e.src = a ∧ e.outlet = b
    · obtain ⟨h1, h2⟩ := h
      simp [h1, h2]
    · rw [List.filter_cons_of_neg (by simpa using h)]
      have : List.countP (fun c => decide (c.ty = Ty.c ∧ c.src = e.src ∧ c.outlet = e.outlet)) [(⟨a, b, c, d, .c⟩ : Conn)] = 0 := by
        rw [List.countP_eq_zero]
        intro x hx
        rw [List.mem_singleton.1 hx]
        simp only [decide_eq_true_eq, true_and]
        rintro ⟨e1, e2⟩
        exact h ⟨e1.symm, e2.symm⟩
      rw [this]
      rfl

/-- every object in the list with the name `s` behaves as `P` says of its number and its arguments -/
def Named (l : List (ℕ × String × List ℝ)) (s : String) (P : ℕ → List ℝ → Prop) : Prop := ∀ o as, (o, s, as) ∈ l → P o as

theorem named_nil (s : String) (P : ℕ → List ℝ → Prop) : Named [] s P := fun _ _ h => by cases h

theorem named_cons {l : List (ℕ × String × List ℝ)} {s t : String} {P : ℕ → List ℝ → Prop} {o : ℕ} {as : List ℝ}
    (h : t = s → P o as) (hl : Named l s P) : Named ((o, t, as) :: l) s P := by
  intro o' as' hm
  rcases List.mem_cons.1 hm with hm | hm
  · cases hm
    exact h rfl
  · exact hl o' as' hm

/-- the operators and functions are those of the real numbers, where these are defined (C60: the functions of all back ends) -/
structure IsReal (W : World ℝ μ) : Prop where
  max : ∀ x y, W.bin "max" x y = max x y
  min : ∀ x y, W.bin "min" x y = min x y
  abs : ∀ x, W.un "abs" x = |x|
  floor : ∀ x, W.un "floor" x = ⌊x⌋
  exp : ∀ x, W.un "exp" x = Real.exp x
  log2 : ∀ x, 0 < x → W.un "log2" x = Real.logb 2 x
  sqrt : ∀ x, 0 ≤ x → W.un "sqrt" x = √x
  /-- a comparison is a mask -/
  mask : ∀ x y z, W.bin "&" (W.bin ">" x y) z = if x > y then z else 0

end Verif.Sig
