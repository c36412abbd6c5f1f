import Verif.Handover
import Mathlib.Data.List.Nodup
/-!
# C93: what the compiler works on is the canvas that was read
-/
namespace Verif.Handover
open Verif.PdFile (Cable)
variable {α : Type}

/-! ### specification -/

/-- a cable between two different boxes that are not comments, at lets that they have -/
def Good (bs : List (Box α)) (c : Cable) : Prop :=
  c.src ≠ c.dst ∧ (∃ x w, bs[c.src]? = some x ∧ x.what = some w ∧ c.outlet < x.outs) ∧
    ∃ y w, bs[c.dst]? = some y ∧ y.what = some w ∧ c.inlet < y.ins

/-- a cable with the names of its boxes -/
def named (bs : List (Box α)) (c : Cable) : Conn := ⟨(bs[c.src]?.map (·.id)).getD 0, c.outlet, (bs[c.dst]?.map (·.id)).getD 0, c.inlet⟩

/-- box `i` of the canvas with its cables, in the order of the file -/
def wired (bs : List (Box α)) (cs : List Cable) (i : Nat) (b : Box α) (w : α) : Obj α where
  id := b.id
  what := w
  ins := (List.range b.ins).map fun k => (cs.filter fun c => c.dst = i ∧ c.inlet = k).map (named bs)
  outs := (List.range b.outs).map fun k => (cs.filter fun c => c.src = i ∧ c.outlet = k).map (named bs)

/-- the boxes that are not comments, in the order of the file, with their cables -/
def graph (bs : List (Box α)) (cs : List Cable) : List (Obj α) :=
  bs.zipIdx.filterMap fun x => x.1.what.map (wired bs cs x.2 x.1)

/-! ### proof -/

theorem objects_eq (bs d : List (Box α)) (h : ((d ++ bs).map (·.id)).Nodup) : bs.foldl put d = d ++ bs := by
  induction bs generalizing d with
  | nil => simp
  | cons b bs ih =>
    have hb : b.id ∉ d.map (·.id) := by
      rw [List.map_append, List.nodup_append] at h
      exact fun hm => h.2.2 _ hm _ (by simp) rfl
    rw [List.foldl_cons, put, if_neg hb, ih _ (by simpa using h)]
    simp

theorem added_eq (bs : List (Box α)) : added bs = graph bs [] := by
  have key : ∀ (l : List (Box α)) (n : Nat), added l = (l.zipIdx n).filterMap fun x => x.1.what.map (wired bs [] x.2 x.1) := by
    intro l
    induction l with
    | nil => intro n; rfl
    | cons b l ih =>
      intro n
      have hh := ih (n + 1)
      unfold added at hh ⊢
      rw [List.zipIdx_cons, List.filterMap_cons, List.filterMap_cons, hh]
      cases b.what with
      | none => rfl
      | some w => simp [wired, List.map_const']
  exact key bs 0

theorem modify_range {n k : Nat} {f g : Nat → List Conn} {c : Conn} (h1 : g k = f k ++ [c]) (h2 : ∀ j, j ≠ k → g j = f j) :
    ((List.range n).map f).modify k (· ++ [c]) = (List.range n).map g := by
  apply List.ext_getElem
  · simp
  · intro j hj hj'
    simp only [List.getElem_modify, List.getElem_map, List.getElem_range]
    split
    · next he => subst he; exact h1.symm
    · next he => exact (h2 j (Ne.symm he)).symm

/-- the list with one object replaced -/
theorem addAt_filterMap {l : List (Box α × Nat)} {F : Box α × Nat → Option (Obj α)} {x : Box α × Nat} {o o' : Obj α} {c : Conn}
    (hid : ∀ y ∈ l, ∀ p, F y = some p → p.id = y.1.id) (hn : (l.map (·.1.id)).Nodup) (hx : x ∈ l) (hF : F x = some o)
    (ho : o.add c = some o') (G : Box α × Nat → Option (Obj α)) (hG : G x = some o') (hs : ∀ y ∈ l, y ≠ x → G y = F y) :
    addAt x.1.id c (l.filterMap F) = some (l.filterMap G) := by
  induction l with
  | nil => simp at hx
  | cons y l ih =>
    rw [List.map_cons, List.nodup_cons] at hn
    by_cases hy : y = x
    · subst hy
      have hrest : l.filterMap G = l.filterMap F := by
        apply List.filterMap_congr
        intro z hz
        refine hs z (List.mem_cons_of_mem _ hz) fun he => hn.1 ?_
        rw [← he]
        exact List.mem_map_of_mem (f := fun w => w.1.id) hz
      rw [List.filterMap_cons_some hF, List.filterMap_cons_some hG, addAt, if_pos (hid _ (List.mem_cons_self ..) _ hF), ho, hrest]
      rfl
    · have hx' : x ∈ l := by
        rcases List.mem_cons.mp hx with h | h
        · exact absurd h.symm hy
        · exact h
      have hih := ih (fun z hz => hid z (List.mem_cons_of_mem _ hz)) hn.2 hx' fun z hz => hs z (List.mem_cons_of_mem _ hz)
      have hne : y.1.id ≠ x.1.id := fun he => hn.1 (by rw [he]; exact List.mem_map_of_mem (f := fun w => w.1.id) hx')
      have hGy := hs y (List.mem_cons_self ..) hy
      cases hFy : F y with
      | none =>
        rw [List.filterMap_cons_none hFy, List.filterMap_cons_none (hGy.trans hFy)]
        exact hih
      | some p =>
        rw [List.filterMap_cons_some hFy, List.filterMap_cons_some (hGy.trans hFy), addAt,
          if_neg (by rw [hid y (List.mem_cons_self ..) p hFy]; exact hne), hih]
        rfl

theorem mem_zipIdx {bs : List (Box α)} {i : Nat} {b : Box α} : (b, i) ∈ bs.zipIdx ↔ bs[i]? = some b := by
  rw [List.mem_zipIdx_iff_getElem?]

theorem zipIdx_ids (bs : List (Box α)) (n : Nat) : (bs.zipIdx n).map (·.1.id) = bs.map (·.id) := by
  induction bs generalizing n with
  | nil => rfl
  | cons b bs ih => rw [List.zipIdx_cons, List.map_cons, ih]; rfl

theorem Obj.add_src {o : Obj α} {c : Conn} (h1 : c.dst ≠ o.id) (h2 : c.src = o.id) (h : c.outlet < o.outs.length) :
    o.add c = some { o with outs := o.outs.modify c.outlet (· ++ [c]) } := by
  unfold Obj.add
  rw [if_neg h1, if_pos h2, if_pos h]

theorem Obj.add_dst {o : Obj α} {c : Conn} (h1 : c.dst = o.id) (h : c.inlet < o.ins.length) :
    o.add c = some { o with ins := o.ins.modify c.inlet (· ++ [c]) } := by
  unfold Obj.add
  rw [if_pos h1, if_pos h]

/-- the half of a cable: an outlet -/
def half (bs : List (Box α)) (cs : List Cable) (c : Cable) (i : Nat) (b : Box α) (w : α) : Obj α :=
  { wired bs cs i b w with outs := (wired bs (cs ++ [c]) i b w).outs }

theorem step {bs : List (Box α)} (hn : (bs.map (·.id)).Nodup) {cs : List Cable} {c : Cable} (hc : Good bs c) :
    connect (graph bs cs) (named bs c) = some (graph bs (cs ++ [c])) := by
  obtain ⟨hne, ⟨x, w, hx, hw, ho⟩, y, v, hy, hv, hi⟩ := hc
  have hz : (bs.zipIdx.map (·.1.id)).Nodup := by rw [zipIdx_ids]; exact hn
  have hnx : named bs c = ⟨x.id, c.outlet, y.id, c.inlet⟩ := by simp [named, hx, hy]
  have hid : x.id ≠ y.id := by
    intro he
    obtain ⟨h1, h1'⟩ := List.getElem?_eq_some_iff.mp hx
    obtain ⟨h2, h2'⟩ := List.getElem?_eq_some_iff.mp hy
    refine hne ((List.Nodup.getElem_inj_iff hn (hi := by simpa using h1) (hj := by simpa using h2)).mp ?_)
    simp [h1', h2', he]
  have e1 : addAt x.id (named bs c) (graph bs cs) =
      some (bs.zipIdx.filterMap fun z => z.1.what.map (half bs cs c z.2 z.1)) := by
    refine addAt_filterMap (x := (x, c.src)) (o := wired bs cs c.src x w) (o' := half bs cs c c.src x w) ?_ hz
      (mem_zipIdx.mpr hx) (by simp [hw]) ?_ _ (by simp [hw]) ?_
    · intro z _ p hp
      obtain ⟨u, _, rfl⟩ := Option.map_eq_some_iff.mp hp
      rfl
    · rw [Obj.add_src (by rw [hnx]; exact Ne.symm hid) (by rw [hnx]; rfl) (by simpa [hnx, wired] using ho)]
      have : (wired bs cs c.src x w).outs.modify (named bs c).outlet (· ++ [named bs c]) = (wired bs (cs ++ [c]) c.src x w).outs := by
        refine modify_range ?_ fun j hj => ?_
        · simp [named]
        · simp [Ne.symm (show j ≠ c.outlet from hj)]
      rw [this]
      rfl
    · rintro ⟨z, k⟩ hzk hzx
      have hk : c.src ≠ k := by
        intro he
        subst he
        exact hzx (by rw [mem_zipIdx.mp hzk |>.symm.trans hx |> Option.some.inj])
      have : half bs cs c k z = wired bs cs k z := by funext u; simp [half, wired, hk]
      rw [this]
  have e2 : addAt y.id (named bs c) (bs.zipIdx.filterMap fun z => z.1.what.map (half bs cs c z.2 z.1)) =
      some (graph bs (cs ++ [c])) := by
    refine addAt_filterMap (x := (y, c.dst)) (o := half bs cs c c.dst y v) (o' := wired bs (cs ++ [c]) c.dst y v) ?_ hz
      (mem_zipIdx.mpr hy) (by simp [hv]) ?_ _ (by simp [hv]) ?_
    · intro z _ p hp
      obtain ⟨u, _, rfl⟩ := Option.map_eq_some_iff.mp hp
      rfl
    · rw [Obj.add_dst (by rw [hnx]; rfl) (by simpa [hnx, wired, half] using hi)]
      have : (half bs cs c c.dst y v).ins.modify (named bs c).inlet (· ++ [named bs c]) = (wired bs (cs ++ [c]) c.dst y v).ins := by
        refine modify_range ?_ fun j hj => ?_
        · simp [named]
        · simp [Ne.symm (show j ≠ c.inlet from hj)]
      rw [this]
      rfl
    · rintro ⟨z, k⟩ hzk hzx
      have hk : c.dst ≠ k := by
        intro he
        subst he
        exact hzx (by rw [mem_zipIdx.mp hzk |>.symm.trans hy |> Option.some.inj])
      have : wired bs (cs ++ [c]) k z = half bs cs c k z := by funext u; simp [half, wired, hk]
      rw [this]
  have hm : ∀ {b : Box α} {i : Nat} {u : α}, bs[i]? = some b → b.what = some u → b.id ∈ (graph bs cs).map (·.id) := by
    intro b i u hb hu
    rw [List.mem_map]
    exact ⟨wired bs cs i b u, List.mem_filterMap.mpr ⟨(b, i), mem_zipIdx.mpr hb, by simp [hu]⟩, rfl⟩
  rw [connect, if_pos ⟨by rw [hnx]; exact hm hx hw, by rw [hnx]; exact hm hy hv⟩]
  have : (named bs c).src = x.id ∧ (named bs c).dst = y.id := by rw [hnx]; exact ⟨rfl, rfl⟩
  rw [this.1, this.2, e1]
  exact e2

/-- **C93** if the names are different, the compiler works on the boxes that were read, without the comments, in their order, and every
outlet and inlet has the cables that were read, in their order -/
theorem canvas_crosses (bs : List (Box α)) (cs : List Cable) (hn : (bs.map (·.id)).Nodup) (hc : ∀ c ∈ cs, Good bs c) :
    handover bs cs = some (graph bs cs) := by
  have h1 : cs.mapM (conn bs) = some (cs.map (named bs)) := by
    have : ∀ l : List Cable, (∀ c ∈ l, Good bs c) → l.mapM (conn bs) = some (l.map (named bs)) := by
      intro l
      induction l with
      | nil => intro _; rfl
      | cons c l ih =>
        intro hl
        obtain ⟨-, ⟨x, w, hx, -, -⟩, y, v, hy, -, -⟩ := hl c (List.mem_cons_self ..)
        rw [List.mapM_cons, ih fun d hd => hl d (List.mem_cons_of_mem _ hd)]
        simp [conn, named, hx, hy]
    exact this cs hc
  have h2 : ∀ (l done : List Cable), (∀ c ∈ l, Good bs c) → connects (graph bs done) (l.map (named bs)) = some (graph bs (done ++ l)) := by
    intro l
    induction l with
    | nil => intro done _; simp [connects]
    | cons c l ih =>
      intro done hl
      rw [List.map_cons, connects, step hn (hl c (List.mem_cons_self ..))]
      show connects (graph bs (done ++ [c])) (l.map (named bs)) = _
      rw [ih _ fun d hd => hl d (List.mem_cons_of_mem _ hd), List.append_assoc]
      rfl
  have h3 : objects bs = bs := by simpa [objects] using objects_eq bs [] (by simpa using hn)
  rw [handover, h1, h3, added_eq]
  exact h2 cs [] hc

/-- **C93** what an outlet of a box plays into: the cables that leave it, in the order of the file -/
theorem outlet_order (bs : List (Box α)) (cs : List Cable) (hn : (bs.map (·.id)).Nodup) (hc : ∀ c ∈ cs, Good bs c) {i k : Nat} {b : Box α}
    {w : α} (hb : bs[i]? = some b) (hw : b.what = some w) (hk : k < b.outs) :
    ∃ g o, handover bs cs = some g ∧ o ∈ g ∧ o.id = b.id ∧ o.what = w ∧
      o.outs[k]? = some ((cs.filter fun c => c.src = i ∧ c.outlet = k).map (named bs)) := by
  refine ⟨_, wired bs cs i b w, canvas_crosses bs cs hn hc, List.mem_filterMap.mpr ⟨(b, i), mem_zipIdx.mpr hb, by simp [hw]⟩, rfl, rfl, ?_⟩
  simp [wired, hk]

/-! ### the names are drawn at random -/

/-- two boxes that get the same name: one of them is gone, and its cables are cables of the other one.  Nothing is reported. -/
theorem same_name : (handover [⟨7, some "osc~ 440", 2, 1⟩, ⟨7, some "osc~ 550", 2, 1⟩, ⟨8, some "dac~", 2, 0⟩] [⟨0, 0, 2, 0⟩, ⟨1, 0, 2, 1⟩]).map
    (fun g => g.map fun o => (o.id, o.what, o.outs)) =
    some [(7, "osc~ 550", [[⟨7, 0, 8, 0⟩, ⟨7, 0, 8, 1⟩]]), (8, "dac~", [])] := by decide +kernel

/-- a box that is connected to itself: the cable is twice at its inlet and not at its outlet -/
theorem to_itself : (handover [⟨7, some "delay 500", 2, 1⟩] [⟨0, 0, 0, 0⟩]).map (fun g => g.map fun o => (o.ins, o.outs)) =
    some [([[⟨7, 0, 7, 0⟩, ⟨7, 0, 7, 0⟩], []], [[]])] := by decide +kernel

namespace Example

/-- a comment, an inlet, a number box and an outlet -/
def boxes : List (Box String) := [⟨4, none, 0, 0⟩, ⟨1, some "inlet", 0, 1⟩, ⟨2, some "float", 2, 1⟩, ⟨3, some "outlet", 1, 0⟩]

/-- two cables out of the inlet -/
def cables : List Cable := [⟨1, 0, 3, 0⟩, ⟨1, 0, 2, 0⟩, ⟨2, 0, 3, 0⟩]

theorem ok : (boxes.map (·.id)).Nodup ∧ ∀ c ∈ cables, Good boxes c := by
  refine ⟨by decide, fun c hc => ?_⟩
  simp only [cables, List.mem_cons, List.not_mem_nil, or_false] at hc
  rcases hc with rfl | rfl | rfl <;> exact ⟨by decide, ⟨_, _, rfl, rfl, by decide⟩, _, _, rfl, rfl, by decide⟩

theorem crosses : (handover boxes cables).map (fun g => g.map fun o => (o.id, o.outs)) =
    some [(1, [[⟨1, 0, 3, 0⟩, ⟨1, 0, 2, 0⟩]]), (2, [[⟨2, 0, 3, 0⟩]]), (3, [])] := by decide +kernel

end Example
end Verif.Handover
