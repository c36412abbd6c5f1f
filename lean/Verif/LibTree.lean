import Verif.LibSim
import Verif.Props.ControlTotal
/-!
Large abstractions are written down in blocks, arranged as a tree, so that objects can be looked up quickly while Lean checks the
generated lemmas (Verif/Lib/Poly.lean).  `Tree.toList` is the list of objects that everything is about; this file only says that
looking up in the tree is looking up in that list.  Models no code of its own.
-/
namespace Verif.Lib
open Verif.Control (Dest Kind Cast Patch)

/-- blocks, with the number of objects to the left of each fork -/
inductive Tree (α : Type)
  | leaf (l : List α)
  | fork (n : Nat) (l r : Tree α)

namespace Tree
variable {α β : Type}

/-- all objects in order -/
def toList : Tree α → List α
  | leaf l => l
  | fork _ l r => l.toList ++ r.toList

def size : Tree α → Nat
  | leaf l => l.length
  | fork _ l r => l.size + r.size

/-- the numbers at the forks are right -/
def ok : Tree α → Bool
  | leaf _ => true
  | fork n l r => l.size == n && (l.ok && r.ok)

/-- look up -/
def get : Tree α → Nat → Option α
  | leaf l, i => l[i]?
  | fork n l r, i => bif Nat.blt i n then l.get i else r.get (i - n)

def map (f : α → β) : Tree α → Tree β
  | leaf l => leaf (l.map f)
  | fork n l r => fork n (l.map f) (r.map f)

theorem toList_length (t : Tree α) : t.toList.length = t.size := by
  induction t with
  | leaf l => rfl
  | fork n l r hl hr => simp [toList, size, hl, hr]

theorem get_eq {t : Tree α} (h : t.ok = true) (i : Nat) : t.toList[i]? = t.get i := by
  induction t generalizing i with
  | leaf l => rfl
  | fork n l r hl hr =>
    simp only [ok, Bool.and_eq_true, beq_iff_eq] at h
    simp only [toList, get]
    cases hb : Nat.blt i n with
    | true =>
      have : i < n := by simpa [Nat.blt_eq] using hb
      rw [List.getElem?_append_left (by rw [toList_length]; omega), hl h.2.1, cond_true]
    | false =>
      have : ¬ i < n := by intro h; rw [← Nat.blt_eq] at h; rw [hb] at h; cases h
      rw [List.getElem?_append_right (by rw [toList_length]; omega), hr h.2.2, cond_false, toList_length, h.1]

end Tree

/-- a tree of objects as a patch -/
def patchT (t : Tree Node) (recvs : Nat → List Nat) (prio : Nat → Int) : Patch where
  kind o := ((t.get o).map (·.kind)).getD .inlet
  outs o := ((t.get o).map (·.outs)).getD []
  recvs := recvs
  prio := prio

def clsT (t : Tree Node) (o : Nat) : Cls := ((t.get o).map (·.cls)).getD .none

theorem mkPatch_tree {t : Tree Node} (h : t.ok = true) (recvs : Nat → List Nat) (prio : Nat → Int) :
    mkPatch t.toList recvs prio = patchT t recvs prio := by
  simp only [mkPatch, patchT, Tree.get_eq h]

theorem clsOf_tree {t : Tree Node} (h : t.ok = true) : clsOf t.toList = clsT t := by
  funext o
  simp only [clsOf, clsT, Tree.get_eq h]

theorem source_tree {t : Tree Node} (h : t.ok = true) (c : Ctx) (recvs : Nat → List Nat) (prio : Nat → Int) (order : Nat → List Nat) :
    (source c t.toList recvs prio order).sys = (patchT t recvs prio).means order (env c (clsT t)) := by
  simp only [source, mkPatch_tree h, clsOf_tree h]

theorem seq_T {t : Tree Node} {recvs : Nat → List Nat} {prio : Nat → Int} {order : Nat → List Nat} {E : Control.Env St Msg} {o : Nat}
    {cs : List (Option Cast)} {outs : List (List Dest)} (h : t.get o = some ⟨.seq cs, outs, .none⟩) (i : Nat) (m : Msg) :
    ((patchT t recvs prio).means order E).node (o, i) m = .fwd false (Control.trigger E (fun k => outs[k]?.getD []) m 0 cs) := by
  have e : (patchT t recvs prio).out o = fun k => outs[k]?.getD [] := by
    funext k
    simp only [Patch.out, patchT, h, Option.map_some, Option.getD_some]
  have e2 : (patchT t recvs prio).kind o = .seq cs := by simp only [patchT, h, Option.map_some, Option.getD_some]
  simp only [Patch.means, e, e2]

/-! `check` and `compiles` with any way of looking up -/

def destF (kind : Nat → Kind) (len : Nat) (d : Dest) : Bool :=
  decide (d.1 < len) && (!isSeq (kind d.1) || decide (d.2 = 0)) && !decide (kind d.1 = .recv)

def nodeF (kind : Nat → Kind) (len : Nat) (rank : Nat → Nat) (o : Nat) (x : Kind × List (List Dest)) : Bool :=
  x.2.all (fun ds => ds.all fun d => destF kind len d &&
    (!(isSeq x.1 && isSeq (kind d.1)) || decide (rank d.1 < rank o))) &&
  match x.1 with
  | .graph ins => ins.all fun i => decide (i < len ∧ kind i = .inlet)
  | .outlet g _ => decide (g < len) && isGraph (kind g)
  | _ => true

def nameF (kind : Nat → Kind) (len : Nat) (rec : List (List Nat)) (prio : Nat → Int) (ord : List Nat) (nm : Nat) (rs : List Nat) : Bool :=
  rs.all (fun r => decide (r < len ∧ kind r = .recv)) &&
  (List.range rec.length).all (fun nm' => decide (nm' = nm) || rs.all fun r => !decide (r ∈ rec.getD nm' [])) &&
  ord.isPerm rs && decide (ord.Pairwise fun a b => prio b ≤ prio a) &&
  (rs.map prio).all fun x => decide (ord.filter (fun r => prio r = x) = rs.filter fun r => prio r = x)

def checkF (kind : Nat → Kind) (outs : Nat → List (List Dest)) (len : Nat) (rec ord : List (List Nat)) (prio : Nat → Int) (rank : Nat → Nat) : Bool :=
  (List.range len).all (fun o => nodeF kind len rank o (kind o, outs o)) &&
  (List.range rec.length).all (fun nm => nameF kind len rec prio (ord.getD nm []) nm (rec.getD nm [])) &&
  decide (ord.length = rec.length)

theorem check_F (sh : Shape) (rec ord : List (List Nat)) (prio : Nat → Int) (rank : List Nat) :
    check sh rec ord prio rank = checkF (kindOf sh) (outsOf sh) sh.length rec ord prio fun i => rank.getD i 0 := rfl

def kindT (t : Tree (Kind × List (List Dest))) (o : Nat) : Kind := ((t.get o).map (·.1)).getD .inlet
def outsT (t : Tree (Kind × List (List Dest))) (o : Nat) : List (List Dest) := ((t.get o).map (·.2)).getD []

theorem kindOf_tree {t : Tree (Kind × List (List Dest))} (h : t.ok = true) : kindOf t.toList = kindT t := by
  funext o; simp only [kindOf, kindT, Tree.get_eq h]

theorem outsOf_tree {t : Tree (Kind × List (List Dest))} (h : t.ok = true) : outsOf t.toList = outsT t := by
  funext o; simp only [outsOf, outsT, Tree.get_eq h]

theorem check_tree {t : Tree (Kind × List (List Dest))} {k : Tree Nat} (h : t.ok = true) (hk : k.ok = true) (rec ord : List (List Nat))
    (prio : Nat → Int) : check t.toList rec ord prio k.toList =
      checkF (kindT t) (outsT t) t.size rec ord prio fun i => (k.get i).getD 0 := by
  rw [check_F, kindOf_tree h, outsOf_tree h, Tree.toList_length]
  simp only [List.getD_eq_getElem?_getD, Tree.get_eq hk]

/-! that a patch compiles, by `compile_total` -/

/-- how far a message to an inlet can go, from a table -/
def farT (k : Tree (List Nat)) (d : Dest) : Nat :=
  match (k.get d.1).getD [] with
  | [] => 0
  | [r] => r
  | l => l[d.2]?.getD 0

/-- connections of an outlet -/
def outT (outs : Nat → List (List Dest)) (o k : Nat) : List Dest := (outs o)[k]?.getD []

/-- one object: what it passes on goes less far -/
def passF (kind : Nat → Kind) (outs : Nat → List (List Dest)) (k : Tree (List Nat)) (o : Nat) : Bool :=
  match kind o with
  | .graph ins => (List.range ins.length).all fun j => (outT outs (ins[j]?.getD 0) 0).all fun e => decide (farT k e < farT k (o, j))
  | .outlet g i => decide (((k.get o).getD []).length = 1) && (outT outs g i).all fun e => decide (farT k e < farT k (o, 0))
  | .seq _ => (outs o).all fun ds => ds.all fun e => decide (farT k e < farT k (o, 0))
  | _ => true

/-- its connections lead to inlets that exist -/
def fitsF (kind : Nat → Kind) (outs : Nat → List (List Dest)) (o : Nat) : Bool :=
  (outs o).all fun ds => ds.all fun e =>
    match kind e.1 with
    | .graph ins => decide (e.2 < ins.length)
    | _ => true

def totalF (kind : Nat → Kind) (outs : Nat → List (List Dest)) (k : Tree (List Nat)) (len : Nat) : Bool :=
  (List.range len).all fun o => passF kind outs k o && fitsF kind outs o

/-- a bound for a table -/
def farMax : Tree (List Nat) → Nat
  | .leaf l => l.flatten.foldr max 0
  | .fork _ l r => max (farMax l) (farMax r)

theorem foldr_max {l : List Nat} {x : Nat} (h : x ∈ l) : x ≤ l.foldr max 0 := by
  induction l with
  | nil => simp at h
  | cons y l ih =>
    simp only [List.foldr_cons]
    rcases List.mem_cons.mp h with rfl | h
    · exact le_max_left _ _
    · exact (ih h).trans (le_max_right _ _)

theorem farMax_le (k : Tree (List Nat)) (i : Nat) (l : List Nat) (h : k.get i = some l) (x : Nat) (hx : x ∈ l) : x ≤ farMax k := by
  induction k generalizing i with
  | leaf r =>
    simp only [Tree.get] at h
    exact foldr_max (List.mem_flatten.mpr ⟨l, List.mem_of_getElem? h, hx⟩)
  | fork n a b ha hb =>
    simp only [Tree.get, farMax] at h ⊢
    cases hc : Nat.blt i n with
    | true => rw [hc, cond_true] at h; exact (ha i h).trans (le_max_left _ _)
    | false => rw [hc, cond_false] at h; exact (hb _ h).trans (le_max_right _ _)

theorem farT_le (k : Tree (List Nat)) (d : Dest) : farT k d ≤ farMax k := by
  unfold farT
  cases h : k.get d.1 with
  | none => simp
  | some l =>
    have := farMax_le k d.1 l h
    simp only [Option.getD_some]
    split
    · exact Nat.zero_le _
    · exact this _ (by simp)
    · cases hx : l[d.2]? with
      | none => simp
      | some x => simpa using this x (List.mem_of_getElem? hx)

theorem exists_compiled_far (c : Ctx) {l : List Node} {rec ord : List (List Nat)} {prio : Nat → Int} {rank : List Nat}
    (hk : check (shapeOf l) rec ord prio rank = true) {k : Tree (List Nat)}
    (ht : totalF (kindOf (shapeOf l)) (outsOf (shapeOf l)) k (shapeOf l).length = true) : ∃ M, Compiled c l (recvsOf rec) prio M := by
  have wf := wf_of_check hk
  have hin : ∀ o, l.length ≤ o → (mkPatch l (recvsOf rec) prio).kind o = .inlet := fun o ho => by
    rw [kind_shape]; exact kind_out (by rw [shape_length]; exact ho)
  have hlt : ∀ {o K}, (mkPatch l (recvsOf rec) prio).kind o = K → K ≠ .inlet → o < l.length := fun {o K} hk h => by
    by_contra hc
    exact h (hk.symm.trans (hin o (by omega)))
  simp only [totalF, List.all_eq_true, List.mem_range, Bool.and_eq_true, shape_length] at ht
  have hout : ∀ o k, (mkPatch l (recvsOf rec) prio).out o k = outT (outsOf (shapeOf l)) o k := fun o k => by
    simp only [Patch.out, outs_shape, outT]
  have hpass : ∀ d e, (mkPatch l (recvsOf rec) prio).Passes d e → farT k e < farT k d := by
    intro d e hp
    cases hp with
    | @graph o ins j i e hkd hi he =>
      have h := (ht o (hlt hkd (by simp))).1
      rw [kind_shape] at hkd
      rw [hout] at he
      have hj : j < ins.length := (List.getElem?_eq_some_iff.mp hi).1
      simp only [passF, hkd, List.all_eq_true, List.mem_range, decide_eq_true_eq] at h
      exact h j hj e (by rw [hi]; exact he)
    | @outlet o g i j e hkd he =>
      have h := (ht o (hlt hkd (by simp))).1
      rw [kind_shape] at hkd
      rw [hout] at he
      simp only [passF, hkd, List.all_eq_true, Bool.and_eq_true, decide_eq_true_eq] at h
      have e1 : farT k (o, j) = farT k (o, 0) := by
        obtain ⟨r, hr⟩ := List.length_eq_one_iff.mp h.1
        simp only [farT, hr]
      rw [e1]
      exact h.2 e he
    | @seq o cs i e hkd he =>
      have h := (ht o (hlt hkd (by simp))).1
      rw [kind_shape] at hkd
      obtain ⟨ds, hds, hd⟩ := Control.mem_out he
      rw [outs_shape] at hds
      simp only [passF, hkd, List.all_eq_true, decide_eq_true_eq] at h
      exact h ds hds e hd
  have hfit : (mkPatch l (recvsOf rec) prio).Fits := by
    intro o i e he ins hi
    obtain ⟨ds, hds, hd⟩ := Control.mem_out he
    rw [outs_shape] at hds
    have ho : o < l.length := by
      by_contra hc
      rw [outs_out (by rw [shape_length]; omega)] at hds
      simp at hds
    have h := (ht o ho).2
    rw [kind_shape] at hi
    simp only [fitsF, List.all_eq_true] at h
    have := h ds hds e hd
    rw [hi] at this
    simpa using this
  have hs := Control.compile_total wf hin hfit hpass (f := farMax k + 1) (fun d => Nat.lt_succ_of_le (farT_le k d)) (seqs (shapeOf l))
    (List.range rec.length)
  obtain ⟨r, hr⟩ := Option.isSome_iff_exists.mp hs
  refine ⟨_, seqs (shapeOf l), List.range rec.length, farMax k + 1, r.1, r.2, hr, fun o => ?_, fun nm h => ?_, rfl⟩
  · simp only [seqs, List.mem_filter, List.mem_range, shape_length, isSeq_iff, kind_shape]
  · obtain ⟨x, hx⟩ := List.exists_mem_of_ne_nil _ h
    exact List.mem_range.mpr (recvsOf_mem hx)

theorem total_tree {t : Tree (Kind × List (List Dest))} (h : t.ok = true) (k : Tree (List Nat)) :
    totalF (kindOf t.toList) (outsOf t.toList) k t.toList.length = totalF (kindT t) (outsT t) k t.size := by
  rw [kindOf_tree h, outsOf_tree h, Tree.toList_length]

end Verif.Lib
