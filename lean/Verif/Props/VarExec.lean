import Verif.VarExec
import Verif.Props.RemapAll
/-!
# C59: how late a signal arrives

Specification: `lagged` in `Props/Reduce.lean`: by nothing, or by the samples of one vector (0 in the first one).
-/
namespace Verif.Reduce

variable {α μ : Type} [Zero α] {N : Nat} {kind : Nat → Kind α}

theorem runVars_append (inp : Nat → Fin N → α) (l l' : List Nat) : ∀ s : Vars α N,
    runVars kind inp (l ++ l') s = runVars kind inp l' (runVars kind inp l s) := by
  induction l with
  | nil => intro s; rfl
  | cons o os ih => intro s; exact ih _

theorem runVars_other (inp : Nat → Fin N → α) {y : Nat} (l : List Nat) : (∀ o ∈ l, kind o ≠ .varWrite y) → ∀ s : Vars α N,
    runVars kind inp l s y = s y := by
  induction l with
  | nil => intro _ s; rfl
  | cons o os ih =>
    intro h s
    rw [runVars, ih (fun p hp => h p (by simp [hp]))]
    unfold runOne
    cases hk : kind o with
    | varWrite z =>
      simp only
      rw [if_neg]
      rintro rfl
      exact h o (by simp) hk
    | _ => rfl

theorem runVars_write (inp : Nat → Fin N → α) {y w : Nat} {l : List Nat} (hw : w ∈ l) (hk : kind w = .varWrite y)
    (h : ∀ o ∈ l, kind o = .varWrite y → o = w) (s : Vars α N) : runVars kind inp l s y = inp w := by
  induction l generalizing s with
  | nil => simp at hw
  | cons o os ih =>
    rw [runVars]
    by_cases hm : w ∈ os
    · exact ih hm (fun p hp => h p (by simp [hp])) _
    · have : w = o := (List.mem_cons.1 hw).resolve_right hm
      subst this
      rw [runVars_other inp os fun p hp e => hm (h p (by simp [hp]) e ▸ hp)]
      simp [runOne, hk]

/-- **C59, the delay.**  In a program whose signal functions run in the order `order`, where `w` is the only write of the variable
`y` and `r` a read of it: what `r` yields is what arrived at `w`, in the same vector when `w` comes before `r`, and one vector
late, with 0 in the first vector, when `r` comes before `w` — whatever arrives at `w`, which may itself depend on what `r` yields.
The delay of a patch is therefore 0 or `N` samples, where `N` depends on the machine the program is compiled for. -/
theorem read_is_late (W : World α μ) (order pre post : List Nat) (r w y : Nat) (inp : Nat → Nat → Fin N → α) (x : Nat → α)
    (hnd : order.Nodup) (hsplit : order = pre ++ r :: post) (hw : w ∈ order) (hkw : kind w = .varWrite y) (hkr : kind r = .varRead y)
    (honly : ∀ o ∈ order, kind o = .varWrite y → o = w) (hx : ∀ k (i : Fin N), inp k w i = x (k * N + i))
    (hblock : W.block = N) (hlate : W.late w r = decide (order.idxOf r < order.idxOf w)) (k : Nat) (i : Fin N) :
    readAt kind inp order pre k y i = lagged W w r x (k * N + i) := by
  have hat : ∀ k, varsAt kind inp order (k + 1) y = inp k w := fun k => runVars_write (inp k) hw hkw honly _
  have hrn : r ∉ pre ∧ r ∉ post := by
    rw [hsplit, List.nodup_append] at hnd
    exact ⟨fun h => hnd.2.2 r h r (by simp) rfl, (List.nodup_cons.1 hnd.2.1).1⟩
  have hir : order.idxOf r = pre.length := by
    rw [hsplit, List.idxOf_append_of_notMem hrn.1, List.idxOf_cons_self, Nat.add_zero]
  have hwr : w ≠ r := by
    rintro rfl
    rw [hkw] at hkr; simp at hkr
  unfold readAt lagged
  by_cases hwp : w ∈ pre
  · have hlt : order.idxOf w < pre.length := by
      rw [hsplit, List.idxOf_append_of_mem hwp]
      exact List.idxOf_lt_length_of_mem hwp
    rw [hlate, hir, decide_eq_false (by omega), if_neg (by simp)]
    rw [runVars_write (inp k) hwp hkw (fun o ho => honly o (by rw [hsplit]; simp [ho]))]
    exact hx k i
  · have hlt : pre.length < order.idxOf w := by
      rw [hsplit, List.idxOf_append_of_notMem hwp, List.idxOf_cons_ne _ (Ne.symm hwr)]
      omega
    rw [hlate, hir, decide_eq_true hlt, if_pos rfl, hblock]
    rw [runVars_other (inp k) pre fun o ho e => hwp (honly o (by rw [hsplit]; simp [ho]) e ▸ ho)]
    cases k with
    | zero => rw [if_pos (by omega)]; rfl
    | succ k =>
      have e : (k + 1) * N = k * N + N := by rw [Nat.succ_mul]
      rw [hat k, hx, if_neg (by omega)]
      congr 1
      omega

/-- `[r~ a]` (1) runs before `[s~ a]` (2): the same patch is late by 4 samples in one program and by 8 in another -/
theorem width_matters (x : Nat → Rat) :
    (∀ k (i : Fin 4), readAt (fun o => if o = 1 then .varRead 0 else if o = 2 then .varWrite 0 else (.varSig : Kind Rat))
      (fun k _ (i : Fin 4) => x (k * 4 + i)) [1, 2] [] (k + 1) 0 i = x ((k + 1) * 4 + i - 4)) ∧
    ∀ k (i : Fin 8), readAt (fun o => if o = 1 then .varRead 0 else if o = 2 then .varWrite 0 else (.varSig : Kind Rat))
      (fun k _ (i : Fin 8) => x (k * 8 + i)) [1, 2] [] (k + 1) 0 i = x ((k + 1) * 8 + i - 8) := by
  constructor
  · intro k i
    show x (k * 4 + i) = _
    congr 1; omega
  · intro k i
    show x (k * 8 + i) = _
    congr 1; omega

end Verif.Reduce
