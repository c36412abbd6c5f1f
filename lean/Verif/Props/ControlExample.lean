import Verif.Props.Control
import Mathlib.Tactic.IntervalCases
/-!
C45: a concrete patch that meets the hypotheses of `control_correct`, and what it does.
-/
namespace Verif.Control.Example

/-- `0` → [t b a] (`1`); its right outlet → `6`; its left outlet → a subpatch (`2`, with inlet `3`, an object `4` that passes
messages on, outlet `5`) → [s x] (`7`); [r x] (`8`) → left inlet of `10`, [r x] (`9`, of higher priority) → right inlet of `10` -/
def kinds : List Kind :=
  [.obj, .seq [some .bang, none], .graph [3], .inlet, .obj, .outlet 2 0, .obj, .send 0, .recv, .recv, .obj]

def conns : List (List (List Dest)) :=
  [[[(1, 0)]], [[(2, 0)], [(6, 0)]], [[(7, 0)]], [[(4, 0)]], [[(5, 0)]], [], [], [], [[(10, 0)]], [[(10, 1)]], []]

def patch : Patch where
  kind o := kinds[o]?.getD .inlet
  outs o := conns[o]?.getD []
  recvs nm := if nm = 0 then [8, 9] else []
  prio o := if o = 9 then 1 else 0

/-- a message is a number; a bang is 0 -/
def env : Env Unit Nat where
  beh o _ m := if o = 4 then .send 0 m .done else .done
  cast c m := match c with | .bang => some 0 | _ => some m

theorem outs_ge {o : Nat} (h : 11 ≤ o) : patch.outs o = [] := by
  have : conns[o]? = none := List.getElem?_eq_none h
  simp [patch, this]

theorem kind_ge {o : Nat} (h : 11 ≤ o) : patch.kind o = .inlet := by
  have : kinds[o]? = none := List.getElem?_eq_none h
  simp [patch, this]

theorem wf : WF patch 11 where
  dest o ds hds d hd := by
    by_cases h : 11 ≤ o
    · rw [outs_ge h] at hds; simp at hds
    · have h : o < 11 := by omega
      have : ∀ o < 11, ∀ ds ∈ patch.outs o, ∀ d ∈ ds, d.1 < 11 ∧ d.1 = 1 ∧ d.2 = 0 ∨ d.1 < 11 ∧ d.1 ≠ 1 ∧ d.1 ≠ 8 ∧ d.1 ≠ 9 := by
        intro o h ds hds d hd
        interval_cases o <;> simp [patch, conns] at hds <;> (try rcases hds with rfl | rfl) <;> (try subst hds) <;> simp at hd <;> subst hd <;> decide
      have hs : ∀ o < 11, (∃ l, patch.kind o = .seq l) → o = 1 := by
        intro o h ⟨l, hl⟩
        interval_cases o <;> first | rfl | (simp [patch, kinds] at hl)
      have hr : ∀ o < 11, patch.kind o = .recv → o = 8 ∨ o = 9 := by
        intro o h hl
        interval_cases o <;> first | exact Or.inl rfl | exact Or.inr rfl | (simp [patch, kinds] at hl)
      rcases this o h ds hds d hd with ⟨h1, h2, h3⟩ | ⟨h1, h2, h3, h4⟩
      · refine ⟨h1, fun _ _ => h3, ?_⟩
        rw [h2]; decide
      · refine ⟨h1, fun l hl => absurd (hs _ h1 ⟨l, hl⟩) h2, fun hl => ?_⟩
        rcases hr _ h1 hl with h | h
        · exact h3 h
        · exact h4 h
  graph o ins h i hi := by
    by_cases ho : 11 ≤ o
    · rw [kind_ge ho] at h; simp at h
    · have ho : o < 11 := by omega
      interval_cases o <;> simp [patch, kinds] at h
      subst h
      simp at hi
      subst hi
      decide
  outlet o g k h := by
    by_cases ho : 11 ≤ o
    · rw [kind_ge ho] at h; simp at h
    · have ho : o < 11 := by omega
      interval_cases o <;> simp [patch, kinds] at h
      obtain ⟨rfl, rfl⟩ := h
      exact ⟨by decide, _, rfl⟩
  recv name r h := by
    simp only [patch] at h
    split at h
    · simp at h
      rcases h with rfl | rfl <;> decide
    · simp at h
  disjoint a b r ha hb := by
    simp only [patch] at ha hb
    split at ha <;> split at hb <;> simp_all
  acyclic := ⟨fun _ => 0, fun s l h ds hds d hd l' h' => by
    exfalso
    by_cases ho : 11 ≤ s
    · rw [kind_ge ho] at h; simp at h
    · have ho : s < 11 := by omega
      interval_cases s <;> simp [patch, kinds] at h
      have : d.1 = 2 ∨ d.1 = 6 := by
        simp [patch, conns] at hds
        rcases hds with rfl | rfl <;> simp at hd <;> simp [hd]
      rcases this with e | e <;> rw [e] at h' <;> simp [patch, kinds] at h'⟩

theorem order_ok : ∀ nm, FireOrder patch nm (if nm = 0 then [9, 8] else []) := by
  intro nm
  by_cases h : nm = 0
  · subst h
    refine ⟨List.Perm.swap _ _ _, by decide, fun x => ?_⟩
    simp only [patch, if_true]
    by_cases h1 : x = 1
    · subst h1; decide
    · by_cases h0 : x = 0
      · subst h0; decide
      · have h0' : ¬ 0 = x := fun e => h0 e.symm
        have h1' : ¬ 1 = x := fun e => h1 e.symm
        simp [h0', h1']
  · simp only [h, if_false]
    refine ⟨by simp [patch, h], by simp, fun x => by simp [patch, h]⟩

/-- it compiles: two casts (11, 12; only 11 is used) and one receiver (13) are added -/
theorem compiles : ((patch.compile 11 [1] [0] 5).map fun r => (List.range 14).map r.2.sendMessage) =
    some [[[(6, 0), (11, 0)]], [], [[(7, 0)]], [[(4, 0)]], [[(7, 0)]], [], [], [[(13, 0)]], [], [], [], [[(4, 0)]],
      [[(6, 0)]], [[(10, 1), (10, 0)]]] := by
  have hs : (patch.reduceSeq 1 [some .bang, none] 11).sorted 0 = [9, 8] :=
    (sorted_fireOrder _ _).unique ⟨(order_ok 0).all, (order_ok 0).sorted, (order_ok 0).stable⟩
  have e : patch.compile 11 [1] [0] 5 =
      (((patch.reduceSeq 1 [some .bang, none] 11).groupName 0 13).toIR 5 (List.range 14)).map
        fun ir => ((patch.reduceSeq 1 [some .bang, none] 11).groupName 0 13, ir) := rfl
  rw [e]
  unfold Patch.groupName
  rw [hs]
  decide

theorem names_ok : ∀ nm, patch.recvs nm ≠ [] → nm ∈ [0] := by
  intro nm h
  simp only [patch] at h
  split at h
  · simp_all
  · simp at h

theorem seqs_ok : ∀ o, o ∈ [1] ↔ o < 11 ∧ ∃ l, patch.kind o = .seq l := by
  intro o
  constructor
  · intro h
    simp at h
    subst h
    exact ⟨by decide, _, rfl⟩
  · rintro ⟨h, l, hl⟩
    interval_cases o <;> simp [patch, kinds] at hl ⊢

/-- `0` sends 5: the right outlet of [t b a] first, then a bang goes through the subpatch to both receivers, the one of higher
priority first -/
theorem meaning : sendAll ((patch.means (fun nm => if nm = 0 then [9, 8] else []) env).deliver 9)
    ((Src.outlet 0 0 5).calls patch fun nm => if nm = 0 then [9, 8] else []) () =
    some ((), [((6, 0), 5), ((4, 0), 0), ((7, 0), 0), ((10, 1), 0), ((10, 0), 0)]) := by decide

/-- all hypotheses of `control_correct` hold, and so the compiled program does the same -/
theorem code_does (q : Patch) (ir : IR) (hc : patch.compile 11 [1] [0] 5 = some (q, ir)) :
    ∃ depth, sendAll ((ir.code env).deliver depth) ((Src.outlet 0 0 5).code ir q.recvs) () =
      some ((), [((6, 0), 5), ((4, 0), 0), ((7, 0), 0), ((10, 1), 0), ((10, 0), 0)]) := by
  have := (control_correct patch 11 [1] [0] 5 q ir hc wf seqs_ok names_ok _ order_ok env ?_ [.outlet 0 0 5] ?_ () ()
    [((6, 0), 5), ((4, 0), 0), ((7, 0), 0), ((10, 1), 0), ((10, 0), 0)]).mp ?_
  · simpa using this
  · intro o i m hk
    by_cases h : o = 4
    · subst h
      exact .send (by decide) .done
    · simp only [env, h, if_false]
      exact .done
  · intro x hx
    simp at hx
    subst hx
    exact ⟨by decide, rfl, by decide⟩
  · exact ⟨9, by simpa using meaning⟩

end Verif.Control.Example
