import Verif.PdReceive
import Mathlib.Tactic.IntervalCases
import Verif.Props.Control
/-!
C35, second half: the order in which Pd receivers fire.
-/
namespace Verif.PdReceive
open Verif.Control (Patch FireOrder)

/-! ## Specification -/

/-- the depth of the graph in which the `i`-th thing of the file stands, relative to `d` -/
def depthAt (es : List Ev) (d : Int) (i : Nat) : Int :=
  d + (es.take i).count .push - (es.take i).count .pop

/-- is it a receiver? -/
def Ev.isRecv : Ev → Bool
  | .recv _ _ _ => true
  | .sigRecv => true
  | _ => false

/-- the number of receivers of all kinds -/
def receivers (es : List Ev) : Nat := es.countP Ev.isRecv

/-- the receiver `id` of the name `nm` stands at place `i` of the file -/
def At (es : List Ev) (i id nm : Nat) (a : Arg) : Prop := es[i]? = some (.recv id nm a)

/-! ## Proofs -/

theorem depthAt_cons (e : Ev) (es : List Ev) (d : Int) (i : Nat) :
    depthAt (e :: es) d (i + 1) = depthAt es (match e with | .push => d + 1 | .pop => d - 1 | _ => d) i := by
  unfold depthAt
  rw [List.take_succ_cons]
  cases e <;> simp <;> omega

theorem mem_load (es : List Ev) (d : Int) (c : Nat) (r : Recv) : r ∈ load es d c ↔
    ∃ i a, At es i r.id r.name a ∧ r.prio = priority a (depthAt es d i) (c + receivers (es.take (i + 1))) := by
  induction es generalizing d c with
  | nil => simp [load, At]
  | cons e es ih =>
    have key : (∃ i a, At (e :: es) i r.id r.name a ∧ r.prio = priority a (depthAt (e :: es) d i) (c + receivers ((e :: es).take (i + 1)))) ↔
        (∃ a, e = .recv r.id r.name a ∧ r.prio = priority a d (c + 1)) ∨
        ∃ i a, At es i r.id r.name a ∧ r.prio = priority a (depthAt (e :: es) d (i + 1)) (c + receivers ((e :: es).take (i + 2))) := by
      constructor
      · rintro ⟨i, a, h1, h2⟩
        cases i with
        | zero =>
          simp only [At, List.getElem?_cons_zero, Option.some.injEq] at h1
          subst h1
          exact Or.inl ⟨a, rfl, by simpa [depthAt, receivers, Ev.isRecv] using h2⟩
        | succ i => exact Or.inr ⟨i, a, by simpa [At] using h1, h2⟩
      · rintro (⟨a, rfl, h2⟩ | ⟨i, a, h1, h2⟩)
        · exact ⟨0, a, by simp [At], by simpa [depthAt, receivers, Ev.isRecv] using h2⟩
        · exact ⟨i + 1, a, by simpa [At] using h1, h2⟩
    rw [key]
    have hr : ∀ i, receivers ((e :: es).take (i + 2)) = (if e.isRecv then 1 else 0) + receivers (es.take (i + 1)) := by
      intro i
      simp only [receivers, List.take_succ_cons, List.countP_cons]
      omega
    simp only [depthAt_cons, hr]
    cases e with
    | push => simp [load, ih, Ev.isRecv]
    | pop => simp [load, ih, Ev.isRecv]
    | sigRecv => simp [load, ih, Ev.isRecv, Nat.add_assoc]
    | recv id nm a =>
      simp only [load, List.mem_cons, ih, Ev.isRecv, if_true, Nat.add_assoc]
      refine or_congr ?_ Iff.rfl
      constructor
      · rintro rfl; exact ⟨a, rfl, rfl⟩
      · rintro ⟨a', h1, h2⟩
        injection h1 with h3 h4 h5
        subst h5
        cases r
        simp only at h3 h4 h2
        subst h3 h4 h2
        rfl

theorem receivers_mono {es : List Ev} {i j : Nat} (h : i ≤ j) : receivers (es.take i) ≤ receivers (es.take j) := by
  unfold receivers
  exact (List.take_prefix_take_left h).sublist.countP_le

theorem receivers_lt {es : List Ev} {i j id nm : Nat} {a : Arg} (h : i < j) (hj : At es j id nm a) :
    receivers (es.take (i + 1)) < receivers (es.take (j + 1)) := by
  have h1 : receivers (es.take (i + 1)) ≤ receivers (es.take j) := receivers_mono h
  have h2 : receivers (es.take (j + 1)) = receivers (es.take j) + 1 := by
    unfold receivers
    rw [List.take_add_one, show es[j]? = _ from hj]
    simp [List.countP_append, Ev.isRecv]
  omega

theorem receivers_pos {es : List Ev} {j id nm : Nat} {a : Arg} (hj : At es j id nm a) : 0 < receivers (es.take (j + 1)) := by
  unfold receivers
  rw [List.take_add_one, show es[j]? = _ from hj]
  simp [List.countP_append, Ev.isRecv]

theorem receivers_le (es : List Ev) (j : Nat) : receivers (es.take j) ≤ receivers es :=
  (List.take_sublist j es).countP_le

/-- in the order of the file, and each once -/
theorem load_order (es : List Ev) (d : Int) (c : Nat) : (load es d c).map (·.id) = es.filterMap fun e =>
    match e with | .recv id _ _ => some id | _ => none := by
  induction es generalizing d c with
  | nil => rfl
  | cons e es ih => cases e <;> simp [load, ih]

/-- the patch of the file: the receivers of a name are those of the file, in its order, with the priorities of `load` -/
structure Loaded (es : List Ev) (c : Nat) (p : Patch) : Prop where
  recvs : ∀ nm, p.recvs nm = ((load es 1 c).filter (·.name = nm)).map (·.id)
  prio : ∀ r ∈ load es 1 c, p.prio r.id = r.prio

/-- different receivers have different numbers -/
def Distinct (es : List Ev) : Prop := ∀ i j id nm nm' a a', At es i id nm a → At es j id nm' a' → i = j

/-- **C35**: receivers without a priority of their own fire the deeper ones first, and those of the same depth in the order of the
file, if the file with all its abstractions has at most 1000 receivers of all kinds (whatever was loaded before) -/
theorem deeper_receivers_first (es : List Ev) (c : Nat) (p : Patch) (hp : Loaded es c p) (hd : Distinct es)
    (hsmall : receivers es ≤ 1000) (nm : Nat) (hno : ∀ i id a, At es i id nm a → ∀ z, a = .int z → z = 0)
    (l : List Nat) (hl : FireOrder p nm l) :
    l.Perm (p.recvs nm) ∧
    l.Pairwise fun x y => ∀ i j a b, At es i x nm a → At es j y nm b →
      depthAt es 1 j < depthAt es 1 i ∨ (depthAt es 1 i = depthAt es 1 j ∧ (i < j ∨ x = y)) := by
  refine ⟨hl.all, hl.sorted.imp fun {x y} h i j a b hi hj => ?_⟩
  have hx : p.prio x = depthAt es 1 i * 1000 - (c + receivers (es.take (i + 1)) : Nat) := by
    have := (mem_load es 1 c ⟨x, nm, _⟩).mpr ⟨i, a, hi, rfl⟩
    rw [hp.prio _ this]
    simp only [priority]
    cases a <;> simp [explicit]
    rename_i z
    simp [hno i x _ hi z rfl]
  have hy : p.prio y = depthAt es 1 j * 1000 - (c + receivers (es.take (j + 1)) : Nat) := by
    have := (mem_load es 1 c ⟨y, nm, _⟩).mpr ⟨j, b, hj, rfl⟩
    rw [hp.prio _ this]
    simp only [priority]
    cases b <;> simp [explicit]
    rename_i z
    simp [hno j y _ hj z rfl]
  rw [hx, hy] at h
  have k1 := receivers_le es (i + 1)
  have k2 := receivers_le es (j + 1)
  have k3 := receivers_pos hi
  have k4 := receivers_pos hj
  by_cases hlt : depthAt es 1 j < depthAt es 1 i
  · exact Or.inl hlt
  · refine Or.inr ?_
    have heq : depthAt es 1 i = depthAt es 1 j := by omega
    refine ⟨heq, ?_⟩
    by_contra hne
    rcases Nat.lt_trichotomy i j with h1 | h1 | h1
    · exact hne (Or.inl h1)
    · subst h1
      have := hi.symm.trans hj
      injection this with e
      injection e with e1 e2 e3
      exact hne (Or.inr e1)
    · have := receivers_lt h1 hi
      omega

/-- **C35**: a priority given by the user, other than 0, counts as it is -/
theorem explicit_priority (es : List Ev) (c : Nat) (p : Patch) (hp : Loaded es c p) (i id nm : Nat) (z : Int)
    (h : At es i id nm (.int z)) (hz : z ≠ 0) : p.prio id = z := by
  have := (mem_load es 1 c ⟨id, nm, _⟩).mpr ⟨i, _, h, rfl⟩
  rw [hp.prio _ this]
  simp [priority, explicit, hz]

/-- a priority 0 given by the user is ignored: [r x 0] in the main patch has priority `1000 - instance` -/
theorem priority_zero_ignored (depth : Int) (inst : Nat) : priority (.int 0) depth inst = depth * 1000 - inst := rfl

/-! ### two places at which the limit of 1000 shows -/

theorem load_replicate (k : Nat) (es : List Ev) (d : Int) (c : Nat) :
    load (List.replicate k .sigRecv ++ es) d c = load es d (c + k) := by
  induction k generalizing c with
  | zero => rfl
  | succ k ih =>
    rw [List.replicate_succ, List.cons_append, load, ih]
    congr 1
    omega

theorem depthAt_replicate (k i : Nat) (es : List Ev) (d : Int) :
    depthAt (List.replicate k .sigRecv ++ es) d (k + i) = depthAt es d i := by
  induction k with
  | zero => simp
  | succ k ih => rw [List.replicate_succ, List.cons_append, show k + 1 + i = (k + i) + 1 by omega, depthAt_cons]; exact ih

/-- a receiver of the main patch, 999 signal receivers, and a receiver of the same name in a subpatch -/
def crowded : List Ev := .recv 0 7 .none :: (List.replicate 999 .sigRecv ++ [.push, .recv 1 7 .none, .pop])

/-- with 1001 receivers the receiver of the main patch comes first, although the other one is deeper -/
theorem crowded_order : (load crowded 1 0).map (fun r => (r.id, r.prio)) = [(0, 999), (1, 999)] ∧
    ∃ p : Patch, Loaded crowded 0 p ∧ FireOrder p 7 [0, 1] ∧ depthAt crowded 1 0 < depthAt crowded 1 1001 := by
  have e : load crowded 1 0 = [⟨0, 7, 999⟩, ⟨1, 7, 999⟩] := by
    unfold crowded
    rw [load, load_replicate]
    rfl
  refine ⟨by rw [e]; rfl, ⟨fun _ => .recv, fun _ => [], fun nm => if nm = 7 then [0, 1] else [], fun _ => 999⟩, ⟨fun nm => ?_, ?_⟩, ?_, ?_⟩
  · rw [e]
    by_cases h : nm = 7
    · subst h; rfl
    · have h' : ¬ 7 = nm := fun e => h e.symm
      simp [h, h']
  · rw [e]
    simp
  · exact ⟨List.Perm.refl _, by simp, fun x => rfl⟩
  · have h1 : depthAt crowded 1 0 = 1 := rfl
    have h2 : depthAt crowded 1 1001 = depthAt [.push, .recv 1 7 .none, .pop] 1 1 := by
      unfold crowded
      rw [depthAt_cons, show (1000 : Nat) = 999 + 1 from rfl, depthAt_replicate]
    rw [h1, h2]
    decide

/-! ### an example -/

/-- [r x] in the main patch, [r x] in a subpatch, [r x] in a subpatch of it, [r x 5000] -/
def file : List Ev := [.recv 0 7 .none, .push, .recv 1 7 .extern, .push, .recv 2 7 (.int 0), .pop, .recv 3 7 .none, .pop, .recv 4 8 (.int 5000)]

example : Distinct file := by
  intro i j id nm nm' a a' h1 h2
  have b : ∀ k id nm a, At file k id nm a → k < 9 := fun k id nm a h => by
    have := List.getElem?_eq_some_iff.mp h
    exact this.1
  have := b i _ _ _ h1
  have := b j _ _ _ h2
  unfold At at h1 h2
  interval_cases i <;> simp [file] at h1 <;> interval_cases j <;> simp [file] at h2 <;> omega

example : (load file 1 0).map (fun r => (r.id, r.prio)) = [(0, 999), (1, 1998), (2, 2997), (3, 1996), (4, 5000)] := by decide

end Verif.PdReceive
