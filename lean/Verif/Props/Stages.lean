import Verif.Stages

/-!
C99: the exit status of hvcc tells whether a stage has failed, and which stages run.
-/

namespace Verif.Stages

/-- Specification: an answer that says it failed tells why, and one that tells an error says it
failed. -/
def Honest (r : Resp) : Prop := r.hasError = true ↔ (r.errors ≠ [] ∨ r.exc.isSome = true)

/-- Specification: all answers of the stages are honest. -/
structure World.Honest (w : World) : Prop where
  pd2hv : Stages.Honest w.pd2hv
  pd2gui : Stages.Honest w.pd2gui
  hv2ir : Stages.Honest w.hv2ir
  ir2c : Stages.Honest w.ir2c
  gen : ∀ g, Stages.Honest (w.gen g)
  ext : ∀ x r, w.ext x = some r → Stages.Honest r

/-- Specification: the names of hvcc's own stages. -/
def reserved : List String :=
  ["pd2hv", "pd2gui", "hv2ir", "hvcc", "ir2c", "ir2c_perf", "c2js", "c2daisy", "c2dpf", "c2owl",
   "c2pdext", "c2unity", "c2wwise", "c2fmod"]

/-- Specification: the generator modules are different and have names of their own. -/
def OwnNames (exts : List String) : Prop := (reserved ++ exts).Nodup

theorem countOne_ne (r : Resp) (h : Honest r) : countOne r ≠ 0 ↔ r.hasError = true := by
  unfold countOne
  by_cases hr : r.hasError = true
  · have := h.1 hr
    rcases r with ⟨a, _ | ⟨e, es⟩, c⟩ <;> simp_all
  · simp [hr]

/-- C99: the exit status is 1 iff some answer has an error to tell, for any answers at all. -/
theorem exit_iff (rs : Results) :
    exitStatus rs = 1 ↔ ∃ p ∈ rs, p.2.hasError = true ∧
      (p.2.errors ≠ [] ∨ p.2.exc.isSome = true) := by
  have h1 : ∀ r : Resp, countOne r ≠ 0 ↔
      r.hasError = true ∧ (r.errors ≠ [] ∨ r.exc.isSome = true) := by
    intro r
    unfold countOne
    rcases r with ⟨_ | _, _ | ⟨e, es⟩, _ | c⟩ <;> simp
  have h2 : (rs.map (fun p => countOne p.2)).sum ≠ 0 ↔ ∃ p ∈ rs, countOne p.2 ≠ 0 := by
    induction rs with
    | nil => simp
    | cons p ps ih =>
      simp only [List.map_cons, List.sum_cons, List.mem_cons, exists_eq_or_imp]
      rw [← ih]
      omega
  unfold exitStatus
  simp only [← h1]
  rw [← h2]
  split <;> simp_all

theorem put_fresh (rs : Results) (p : String × Resp) (h : p.1 ∉ rs.map (·.1)) :
    put rs p = rs ++ [p] := by
  unfold put
  rw [if_neg h]

theorem foldl_put (ps rs : Results) (h : ((rs ++ ps).map (·.1)).Nodup) :
    ps.foldl put rs = rs ++ ps := by
  induction ps generalizing rs with
  | nil => simp
  | cons p ps ih =>
    have hp : p.1 ∉ rs.map (·.1) := by
      rw [List.map_append, List.nodup_append] at h
      intro hm
      exact h.2.2 _ hm p.1 (by simp) rfl
    rw [List.foldl_cons, put_fresh _ _ hp, ih _ (by simpa using h)]
    simp

/-- The answer under the name `hvcc`. -/
def conflictResp (cs : List String) : Results :=
  if cs = [] then [] else [("hvcc", { hasError := true, errors := cs, exc := none })]

theorem foldl_addError (cs es : List String) (rs : Results) (h : "hvcc" ∉ rs.map (·.1)) :
    cs.foldl addError (rs ++ [("hvcc", { hasError := true, errors := es, exc := none })]) =
      rs ++ [("hvcc", { hasError := true, errors := es ++ cs, exc := none })] := by
  induction cs generalizing es with
  | nil => simp
  | cons c cs ih =>
    have hm : rs.map (fun q : String × Resp =>
        if q.1 = "hvcc" then (q.1, { q.2 with errors := q.2.errors ++ [c] }) else q) = rs := by
      refine (List.map_congr_left (g := id) ?_).trans (List.map_id rs)
      intro q hq
      have : q.1 ≠ "hvcc" := fun e => h (e ▸ List.mem_map_of_mem (f := (·.1)) hq)
      simp [this]
    rw [List.foldl_cons]
    have : addError (rs ++ [("hvcc", { hasError := true, errors := es, exc := none })]) c =
        rs ++ [("hvcc", { hasError := true, errors := es ++ [c], exc := none })] := by
      unfold addError
      rw [if_pos (by simp), List.map_append, hm]
      simp
    rw [this, ih]
    simp

theorem conflicts_eq (cs : List String) (rs : Results) (h : "hvcc" ∉ rs.map (·.1)) :
    cs.foldl addError rs = rs ++ conflictResp cs := by
  cases cs with
  | nil => simp [conflictResp]
  | cons c cs =>
    rw [List.foldl_cons]
    have : addError rs c = rs ++ [("hvcc", { hasError := true, errors := [c], exc := none })] := by
      unfold addError
      rw [if_neg h]
    rw [this, foldl_addError _ _ _ h]
    simp [conflictResp]

theorem runExt_names (w : World) (exts : List String) :
    ((runExt w exts).map (·.1)).Sublist exts := by
  induction exts with
  | nil => simp [runExt]
  | cons x xs ih =>
    unfold runExt at ih ⊢
    rw [List.filterMap_cons]
    cases h : w.ext x with
    | none => exact ih.cons _
    | some r => simpa [h] using ih

theorem runBuiltin_names (w : World) (gens : List String) :
    ((runBuiltin w gens).map (·.1)).Sublist (builtin.map (·.2)) := by
  unfold runBuiltin
  rw [List.map_map]
  exact (List.filter_sublist (l := builtin)).map (·.2)

/-- C99: what the answers of a run are, in order: the stages up to the first one that failed; the
reader for the GUI and conflicts of names stop nothing. -/
theorem compile_eq (w : World) (gens exts : List String) (hx : OwnNames exts) :
    compile w gens exts =
      match w.inputError with
      | some e => [("hvcc", { hasError := true, errors := [e], exc := none })]
      | none =>
        [("pd2hv", w.pd2hv), ("pd2gui", w.pd2gui)] ++
        if w.pd2hv.hasError then [] else [("hv2ir", w.hv2ir)] ++
          if w.hv2ir.hasError then [] else conflictResp w.conflicts ++ [("ir2c", w.ir2c)] ++
            if w.ir2c.hasError then [] else
              [("ir2c_perf", { hasError := false, errors := [], exc := none })] ++
                runBuiltin w gens ++ runExt w exts := by
  unfold compile
  cases w.inputError with
  | some e => simp [addError]
  | none =>
    have e1 : put (put [] ("pd2hv", w.pd2hv)) ("pd2gui", w.pd2gui) =
        [("pd2hv", w.pd2hv), ("pd2gui", w.pd2gui)] := by simp [put]
    simp only [e1, List.head?_cons, Option.any_some]
    by_cases h1 : w.pd2hv.hasError = true
    · simp [h1]
    have e2 : put [("pd2hv", w.pd2hv), ("pd2gui", w.pd2gui)] ("hv2ir", w.hv2ir) =
        [("pd2hv", w.pd2hv), ("pd2gui", w.pd2gui), ("hv2ir", w.hv2ir)] := by simp [put]
    simp only [h1, e2]
    by_cases h2 : w.hv2ir.hasError = true
    · simp [h2]
    simp only [h2]
    rw [conflicts_eq _ _ (by simp)]
    have e3 : put ([("pd2hv", w.pd2hv), ("pd2gui", w.pd2gui), ("hv2ir", w.hv2ir)] ++
        conflictResp w.conflicts) ("ir2c", w.ir2c) = _ := put_fresh _ _ (by
          unfold conflictResp; split <;> simp)
    rw [e3]
    by_cases h3 : w.ir2c.hasError = true
    · simp [h3]
    simp only [h3]
    have e4 : put ([("pd2hv", w.pd2hv), ("pd2gui", w.pd2gui), ("hv2ir", w.hv2ir)] ++
        conflictResp w.conflicts ++ [("ir2c", w.ir2c)])
        ("ir2c_perf", { hasError := false, errors := [], exc := none }) = _ := put_fresh _ _ (by
          unfold conflictResp; split <;> simp)
    rw [e4, foldl_put]
    · simp
    · have hs : (conflictResp w.conflicts |>.map (·.1)).Sublist ["hvcc"] := by
        unfold conflictResp; split <;> simp
      refine List.Nodup.sublist ?_ hx
      have := (((hs.append_left ["pd2hv", "pd2gui", "hv2ir"]).append
        (List.Sublist.refl ["ir2c", "ir2c_perf"])).append (runBuiltin_names w gens)).append
          (runExt_names w exts)
      simpa [reserved, builtin] using this

/-- The answer has an error to tell. -/
def Bad (r : Resp) : Prop := r.hasError = true ∧ (r.errors ≠ [] ∨ r.exc.isSome = true)

theorem ex_app (a b : Results) :
    (∃ p ∈ a ++ b, Bad p.2) ↔ (∃ p ∈ a, Bad p.2) ∨ ∃ p ∈ b, Bad p.2 := by
  simp only [List.mem_append, or_and_right, exists_or]

theorem ex_cons (k : String) (r : Resp) (b : Results) :
    (∃ p ∈ (k, r) :: b, Bad p.2) ↔ Bad r ∨ ∃ p ∈ b, Bad p.2 := by
  simp only [List.mem_cons, or_and_right, exists_or, exists_eq_left]

theorem ex_nil : (∃ p ∈ ([] : Results), Bad p.2) ↔ False := by
  simp only [List.not_mem_nil, false_and, exists_false]

/-- C99: `hvcc` exits with 0 exactly when everything that was asked for has succeeded. -/
theorem exit_zero_iff (w : World) (hw : w.Honest) (gens exts : List String) (hx : OwnNames exts) :
    exitStatus (compile w gens exts) = 0 ↔
      w.inputError = none ∧ w.pd2hv.hasError = false ∧ w.pd2gui.hasError = false ∧
      w.hv2ir.hasError = false ∧ w.conflicts = [] ∧ w.ir2c.hasError = false ∧
      (∀ b ∈ builtin, b.1 ∈ gens → (w.gen b.1).hasError = false) ∧
      (∀ x ∈ exts, ∀ r, w.ext x = some r → r.hasError = false) := by
  have h01 : ∀ rs, exitStatus rs = 0 ↔ ¬ exitStatus rs = 1 := by
    intro rs; unfold exitStatus; split <;> simp
  have key : ∀ r : Resp, Honest r → (Bad r ↔ r.hasError = true) :=
    fun r h => ⟨fun a => a.1, fun a => ⟨a, h.1 a⟩⟩
  rw [h01, exit_iff, compile_eq w gens exts hx]
  change ¬ (∃ p : String × Resp, p ∈ _ ∧ Bad p.2) ↔ _
  cases hi : w.inputError with
  | some e => simp [Bad]
  | none =>
    have hb : (∃ p ∈ runBuiltin w gens, Bad p.2) ↔
        ∃ b ∈ builtin, b.1 ∈ gens ∧ (w.gen b.1).hasError = true := by
      unfold runBuiltin
      constructor
      · rintro ⟨p, hp, h, -⟩
        obtain ⟨b, hb, rfl⟩ := List.mem_map.1 hp
        have := List.mem_filter.1 hb
        exact ⟨b, this.1, by simpa using this.2, h⟩
      · rintro ⟨b, hb, hg, h⟩
        exact ⟨_, List.mem_map.2 ⟨b, List.mem_filter.2 ⟨hb, by simpa using hg⟩, rfl⟩,
          (key _ (hw.gen _)).2 h⟩
    have he : (∃ p ∈ runExt w exts, Bad p.2) ↔
        ∃ x ∈ exts, ∃ r, w.ext x = some r ∧ r.hasError = true := by
      unfold runExt
      constructor
      · rintro ⟨p, hp, h, -⟩
        obtain ⟨x, hx, hr⟩ := List.mem_filterMap.1 hp
        cases hwx : w.ext x with
        | none => simp [hwx] at hr
        | some r =>
          simp only [hwx, Option.map_some, Option.some.injEq] at hr
          subst hr
          exact ⟨x, hx, r, hwx, h⟩
      · rintro ⟨x, hx, r, hr, h⟩
        exact ⟨(x, r), List.mem_filterMap.2 ⟨x, hx, by simp [hr]⟩, (key _ (hw.ext _ _ hr)).2 h⟩
    have hc : (∃ p ∈ conflictResp w.conflicts, Bad p.2) ↔ w.conflicts ≠ [] := by
      unfold conflictResp Bad; split <;> simp_all
    have hb' : (¬ ∃ p ∈ runBuiltin w gens, Bad p.2) ↔
        ∀ b ∈ builtin, b.1 ∈ gens → (w.gen b.1).hasError = false := by
      rw [hb]; simp only [not_exists, not_and, Bool.not_eq_true]
    have he' : (¬ ∃ p ∈ runExt w exts, Bad p.2) ↔
        ∀ x ∈ exts, ∀ r, w.ext x = some r → r.hasError = false := by
      rw [he]; simp only [not_exists, not_and, Bool.not_eq_true]
    have hc' : (¬ ∃ p ∈ conflictResp w.conflicts, Bad p.2) ↔ w.conflicts = [] := by
      rw [hc, Decidable.not_not]
    have k0 : ¬ Bad { hasError := false, errors := [], exc := none } := by simp [Bad]
    have k1 := key _ hw.pd2hv
    have k2 := key _ hw.pd2gui
    have k3 := key _ hw.hv2ir
    have k4 := key _ hw.ir2c
    rw [← hb', ← he', ← hc']
    cases h1 : w.pd2hv.hasError <;> cases h2 : w.pd2gui.hasError <;>
      cases h3 : w.hv2ir.hasError <;> cases h4 : w.ir2c.hasError <;>
      simp only [h1, h2, h3, h4] at k1 k2 k3 k4 <;>
      simp only [or_false, k0, k1, k2, k3, k4, ex_app, ex_cons, if_true, if_false,
        Bool.false_eq_true, not_or, false_or, true_or, not_true_eq_false,
        true_and, false_and, and_false, reduceCtorEq, ex_nil]

/-- C99: a generator of hvcc runs exactly when it was asked for and reader, compiler and C writer
have succeeded; then its answer is in the results. -/
theorem generator_runs_iff (w : World) (gens exts : List String) (hx : OwnNames exts)
    (b : String × String) (hb : b ∈ builtin) :
    b.2 ∈ (compile w gens exts).map (·.1) ↔
      b.1 ∈ gens ∧ w.inputError = none ∧ w.pd2hv.hasError = false ∧ w.hv2ir.hasError = false ∧
        w.ir2c.hasError = false := by
  have hne : b.2 ∉ ["pd2hv", "pd2gui", "hv2ir", "hvcc", "ir2c", "ir2c_perf"] ∧
      ∀ c ∈ builtin, c.2 = b.2 → c = b := by
    revert b
    decide +kernel
  have hr : b.2 ∈ (runBuiltin w gens).map (·.1) ↔ b.1 ∈ gens := by
    unfold runBuiltin
    rw [List.map_map]
    constructor
    · intro h
      obtain ⟨c, hc, e⟩ := List.mem_map.1 h
      have hc := List.mem_filter.1 hc
      rw [← hne.2 c hc.1 e]
      simpa using hc.2
    · intro h
      exact List.mem_map.2 ⟨b, List.mem_filter.2 ⟨hb, by simpa using h⟩, rfl⟩
  have hext : b.2 ∉ (runExt w exts).map (·.1) := by
    intro h
    have h := (runExt_names w exts).subset h
    have hres : ∀ c ∈ builtin, c.2 ∈ reserved := by decide +kernel
    have hres := hres b hb
    exact (List.nodup_append.1 hx).2.2 _ hres _ h rfl
  have hcon : b.2 ∉ (conflictResp w.conflicts).map (·.1) := by
    unfold conflictResp
    have := hne.1
    split <;> simp_all
  have h0 := hne.1
  simp only [List.mem_cons, List.not_mem_nil, or_false, not_or] at h0
  rw [compile_eq w gens exts hx]
  cases hi : w.inputError with
  | some e => simp [h0]
  | none =>
    cases h1 : w.pd2hv.hasError <;> cases h3 : w.hv2ir.hasError <;>
      cases h4 : w.ir2c.hasError <;>
      simp only [if_true, if_false, Bool.false_eq_true, List.map_append, List.map_cons,
        List.map_nil, List.mem_append, List.mem_cons, List.not_mem_nil, or_false, h0, hcon, hr,
        hext, false_or, reduceCtorEq, and_true, and_false]

/-- C99, finding F140: a generator that hvcc does not know is ignored without a word. -/
theorem unknown_generator_ignored (w : World) (g : String) (gens exts : List String)
    (hg : g ∉ builtin.map (·.1)) : compile w (g :: gens) exts = compile w gens exts := by
  have : runBuiltin w (g :: gens) = runBuiltin w gens := by
    unfold runBuiltin
    congr 1
    apply List.filter_congr
    intro b hb
    have : b.1 ≠ g := fun e => hg (e ▸ List.mem_map_of_mem (f := (·.1)) hb)
    simp [this]
  unfold compile
  rw [this]

/-- C99, finding F140: a generator module that does not exist does not change the results. -/
theorem missing_module_ignored (w : World) (x : String) (gens exts : List String)
    (h : w.ext x = none) : compile w gens (x :: exts) = compile w gens exts := by
  have : runExt w (x :: exts) = runExt w exts := by
    unfold runExt
    rw [List.filterMap_cons]
    simp [h]
  unfold compile
  rw [this]

/-- C99, finding F141: conflicts of names stop no stage: without them the other answers are the
same. -/
theorem conflicts_stop_nothing (w : World) (gens exts : List String) (hx : OwnNames exts)
    (hi : w.inputError = none) :
    (compile w gens exts).filter (fun p => p.1 ≠ "hvcc") =
      (compile { w with conflicts := [] } gens exts).filter (fun p => p.1 ≠ "hvcc") := by
  rw [compile_eq w gens exts hx, compile_eq _ gens exts hx]
  have hc : (conflictResp w.conflicts).filter (fun p => decide (p.1 ≠ "hvcc")) = [] := by
    unfold conflictResp; split <;> simp
  simp only [hi]
  cases w.pd2hv.hasError <;> cases w.hv2ir.hasError <;> cases w.ir2c.hasError <;>
    simp only [if_true, if_false, Bool.false_eq_true, List.filter_append, hc] <;>
    simp [conflictResp] <;> rfl

/-- An answer without errors. -/
def good : Resp := { hasError := false, errors := [], exc := none }

/-- A run in which all succeed but the JavaScript generator. -/
def exWorld : World where
  inputError := none
  pd2hv := good
  pd2gui := good
  hv2ir := good
  conflicts := []
  ir2c := good
  gen := fun g => if g = "js" then { hasError := true, errors := [], exc := some "no emcc" } else good
  ext := fun x => if x = "mine" then some good else none

/-- The hypotheses of the theorems are met. -/
theorem exWorld_honest : exWorld.Honest := by
  have hg : Honest good := by simp [Honest, good]
  refine ⟨hg, hg, hg, hg, ?_, ?_⟩
  · intro g
    simp only [exWorld]
    split
    · simp [Honest]
    · exact hg
  · intro x r h
    simp only [exWorld] at h
    split at h
    · cases h; exact hg
    · cases h

example : OwnNames ["mine", "other"] ∧
    exitStatus (compile exWorld ["c", "js", "dpf"] ["mine", "other"]) = 1 ∧
    exitStatus (compile exWorld ["c", "dpf"] ["mine", "other"]) = 0 ∧
    (compile exWorld ["dpf", "js"] ["mine"]).map (·.1) =
      ["pd2hv", "pd2gui", "hv2ir", "ir2c", "ir2c_perf", "c2js", "c2dpf", "mine"] := by
  unfold OwnNames
  decide +kernel

end Verif.Stages
