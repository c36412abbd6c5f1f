import Verif.Props.ReduceStep
/-!
Proofs for C58: the cases of one object.
-/
namespace Verif.Reduce

variable {T : Option Typing} {α μ : Type} [DecidableEq α] [Field α]

/-- what an object computes, from the signals at its inlets -/
def rhs (W : World α μ) (g : Graph α) (log : Nat → List (Sent μ)) (v : Nat → Nat → Nat → α) (o t : Nat) : α :=
  match g.kind o with
  | .binop op k => W.op op (operand W v log 0 (g.ins o 0) t) (operand W v log k (g.ins o 1) t)
  | .unop op => W.fn op (inSum v (g.ins o 0) t)
  | .var k => held W k (received (log t) (g.ins o 0))
  | .irBin name => W.op (irOp name) (inSum v (g.ins o 0) t) (inSum v (g.ins o 1) t)
  | .irUn name => W.fn (irFn name) (inSum v (g.ins o 0) t)
  | .varK k => k
  | .varRead y => match g.kind y with
    | .varS k => held W k (received (log t) (g.ins y 0))
    | _ => 0
  | _ => 0

/-- the equation of the object holds without condition -/
def Live (g : Graph α) (o : Nat) : Prop :=
  match g.kind o with
  | .binop .. => hasSignal (g.ins o 0) ∨ hasSignal (g.ins o 1)
  | .unop .. => hasSignal (g.ins o 0)
  | .var .. | .irBin .. | .irUn .. | .varK .. => True
  | .varRead y => ∃ k, g.kind y = .varS k
  | _ => False

theorem rhs_of_obeys {W : World α μ} {g : Graph α} {log : Nat → List (Sent μ)} {v : Nat → Nat → Nat → α} {o : Nat}
    (h : Obeys W g log v o) (hl : Live g o) (t : Nat) : v o 0 t = rhs W g log v o t := by
  unfold Obeys at h
  unfold Live at hl
  unfold rhs
  cases hk : g.kind o with
  | binop op k => rw [hk] at h hl; exact h hl t
  | unop op => rw [hk] at h hl; exact h hl t
  | varRead y => 
    rw [hk] at h hl
    obtain ⟨k0, h0⟩ := hl
    rcases h with ⟨k, h1, h2⟩ | ⟨w, -, -, h1, -⟩
    · simp only [h1]; exact h2 t
    · rw [h0] at h1; simp at h1
  | send _ => rw [hk] at hl; exact hl.elim
  | receive _ => rw [hk] at hl; exact hl.elim
  | varSig => rw [hk] at hl; exact hl.elim
  | varWrite _ => rw [hk] at hl; exact hl.elim
  | irBinC _ _ => rw [hk] at hl; exact hl.elim
  | irUnC _ => rw [hk] at hl; exact hl.elim
  | varS _ => rw [hk] at hl; exact hl.elim
  | varC _ => rw [hk] at hl; exact hl.elim
  | other _ => rw [hk] at hl; exact hl.elim
  | _ => rw [hk] at h; exact h t

theorem obeys_of_rhs {W : World α μ} {g : Graph α} {log : Nat → List (Sent μ)} {v : Nat → Nat → Nat → α} {o : Nat}
    (ho : ∀ s, g.kind o ≠ .other s) (ho' : ∀ s, g.kind o ≠ .receive s) (hr : ∀ y, g.kind o = .varRead y → ∃ k, g.kind y = .varS k)
    (h : ∀ t, v o 0 t = rhs W g log v o t) : Obeys W g log v o := by
  unfold rhs at h
  unfold Obeys
  cases hk : g.kind o with
  | binop op k => rw [hk] at h; exact fun _ => h
  | unop op => rw [hk] at h; exact fun _ => h
  | varRead y => 
    rw [hk] at h
    obtain ⟨k, h1⟩ := hr y hk
    simp only [h1] at h
    exact .inl ⟨k, h1, h⟩
  | send _ => trivial
  | receive s => exact absurd hk (ho' s)
  | varSig => trivial
  | varWrite _ => trivial
  | irBinC _ _ => trivial
  | irUnC _ => trivial
  | varS _ => trivial
  | varC _ => trivial
  | other s => exact absurd hk (ho s)
  | _ => rw [hk] at h; exact h

theorem inSum_congr {v v' : Nat → Nat → Nat → α} {l : List Conn} {t : Nat}
    (h : ∀ c ∈ l, c.ty = .f → v' c.src c.outlet t = v c.src c.outlet t) : inSum v' l t = inSum v l t := by
  unfold inSum
  congr 1
  refine List.map_congr_left fun c hc => ?_
  have := List.mem_filter.1 hc
  exact h c this.1 (by simpa using this.2)

theorem rhs_congr {W : World α μ} {g : Graph α} {log : Nat → List (Sent μ)} {v v' : Nat → Nat → Nat → α} {o t : Nat}
    (h : ∀ i, ∀ c ∈ g.ins o i, c.ty = .f → v' c.src c.outlet t = v c.src c.outlet t) :
    rhs W g log v' o t = rhs W g log v o t := by
  have e := fun i => inSum_congr (h i)
  unfold rhs
  cases g.kind o <;> simp only [operand, e]

theorem lang_live {g : Graph α} {n o : Nat} {M : Multiset Conn} (r : ReadyT T g n M) (hm : o ∈ g.ids) (hl : (g.kind o).lang)
    {c : Conn} (hc : c ∈ M) (hs : c.src = o) (hf : c.ty = .f) : Live g o := by
  have h1 : c ∈ g.outs o 0 := r.wired.mem_outs.2 ⟨hc, hs, (r.lets o hm hl).outlet c hc hs⟩
  have h2 : fmt (g.outs o 0) ≠ '_' ∧ fmt (g.outs o 0) ≠ 'c' := by
    have h3 : g.outs o 0 ≠ [] := List.ne_nil_of_mem h1
    have h4 : ¬ ((g.outs o 0).all (·.ty = .c) = true) := by
      intro h
      rw [List.all_eq_true] at h
      have := h c h1
      rw [hf] at this
      simp at this
    unfold fmt
    rw [if_neg h3, if_neg h4]
    constructor <;> (split <;> [decide; (split <;> decide)])
  have h5 : ∀ l : List Conn, fmt l = 'f' → hasSignal l = true := by
    intro l h
    unfold fmt at h
    unfold hasSignal
    by_cases h0 : l = []
    · simp [h0] at h
    · rw [if_neg h0] at h
      split at h
      · simp at h
      · split at h
        · rename_i h6
          rw [List.all_eq_true] at h6
          obtain ⟨d, hd⟩ := List.exists_mem_of_ne_nil _ h0
          exact List.any_eq_true.2 ⟨d, hd, h6 d hd⟩
        · split at h <;> simp at h
  have hF := r.fits o hm
  unfold Fits at hF
  unfold Live
  cases hk : g.kind o with
  | binop op k =>
    rw [hk] at hF
    rcases hF with h | h | h
    · exact absurd h h2.1
    · rcases h.2.2 with h | h
      · exact .inl (h5 _ h.1)
      · exact .inr (h5 _ h.2)
    · exact absurd h.1 h2.2
  | unop op =>
    rw [hk] at hF
    rcases hF with h | ⟨-, -, h | h⟩
    · exact h5 _ h.1
    · exact absurd h h2.1
    · exact absurd h h2.2
  | var k => trivial
  | _ => rw [hk] at hl; simp [Kind.lang] at hl

section
variable {g g' : Graph α} {n o x j : Nat} {M I : Multiset Conn} {xs : List (Kind α)} {ρ : Nat → Nat}

/-- the step, from what the new objects compute -/
theorem Setup.sim' (s : Setup T g n M o g' xs I x j ρ) {δ : Conn → Option Conn} (m : More T g n M o g' xs I x j ρ δ)
    (E : ∀ (W : World α μ) (log : Nat → List (Sent μ)) (v : Nat → Nat → Nat → α), ∃ v', (∀ p < n, v' p = v p) ∧
      ∀ i, i < xs.length → Obeys W g' log v' (n + i))
    (V : ∀ (W : World α μ) (log : Nat → List (Sent μ)) (v v' : Nat → Nat → Nat → α), (∀ t, ∀ e ∈ log t, e.src < n) →
      (∀ p < n, p ≠ o → v' p = v p) → (∀ i, i < xs.length → Obeys W g' (rename ρ log) v' (n + i)) →
      (∃ c ∈ M, c.src = o ∧ c.ty = .f) → ∀ t, v' x j t = rhs W g log v o t) (W : World α μ) :
    Sim W g g' n (n + xs.length) ρ δ := by
  refine s.sim W m ?_ ?_
  · intro log hlog v hv
    obtain ⟨v', h1, h2⟩ := E W (rename ρ log) v
    refine ⟨v', ⟨fun p hp _ j t => by rw [h1 p hp], fun c hc hs hf t => ?_⟩, h2⟩
    rw [V W log v v' hlog (fun p hp _ => h1 p hp) h2 ⟨c, hc, hs, hf⟩ t,
      (s.ready.lets o s.mem s.isLang).outlet c hc hs,
      rhs_of_obeys hv (lang_live s.ready s.mem s.isLang hc hs hf) t]
  · intro log hlog v' hv'
    have hc : ∀ t, rhs W g log (fun p j t => if p = o then rhs W g log v' o t else v' p j t) o t = rhs W g log v' o t := by
      intro t
      refine rhs_congr fun i c hc _ => ?_
      obtain ⟨h1, h2, -⟩ := s.ready.wired.mem_ins.1 hc
      rw [if_neg]
      exact fun h => s.ready.loop c h1 (h.trans h2.symm)
    refine ⟨fun p j t => if p = o then rhs W g log v' o t else v' p j t, ⟨fun p _ hp j t => by simp [hp], ?_⟩, ?_⟩
    · intro c hcm hs hf t
      rw [V W log (fun p j t => if p = o then rhs W g log v' o t else v' p j t) v' hlog
        (fun p _ hp => by funext j t; simp [hp]) hv' ⟨c, hcm, hs, hf⟩ t, hc, if_pos rfl]
    · refine obeys_of_rhs ?_ ?_ ?_ fun t => ?_
      · intro w hk
        have := s.isLang
        rw [hk] at this
        simp [Kind.lang] at this
      · intro w hk
        have := s.isLang
        rw [hk] at this
        simp [Kind.lang] at this
      · intro w hk
        have := s.isLang
        rw [hk] at this
        simp [Kind.lang] at this
      · rw [hc, if_pos rfl]

theorem Setup.lang' (s : Setup T g n M o g' xs I x j ρ) {δ : Conn → Option Conn} (m : More T g n M o g' xs I x j ρ δ) :
    ∀ p ∈ g'.ids, (g'.kind p).lang → p ∈ g.ids ∧ p ≠ o := by
  intro p hp hl
  rcases (s.mem_ids p).1 hp with h | ⟨i, hi, rfl⟩
  · exact h
  · obtain ⟨y, hy⟩ : ∃ y, xs[i]? = some y := ⟨xs[i], List.getElem?_eq_getElem hi⟩
    rw [s.res.kindNew i y hy, (m.kinds i y hy).1] at hl
    simp at hl

end

/-- one object has been replaced -/
def Done (T : Option Typing) (μ : Type) (g : Graph α) (n o : Nat) (g' : Graph α) (n' : Nat) : Prop :=
  ∃ M' ρ δ, ReadyT T g' n' M' ∧ (∀ p ∈ g'.ids, (g'.kind p).lang → p ∈ g.ids ∧ p ≠ o) ∧
    (∀ p ∈ g.ids, p ≠ o → p ∈ g'.ids ∧ g'.kind p = g.kind p) ∧ ∀ W : World α μ, Sim W g g' n n' ρ δ

section
variable {g g' : Graph α} {n o x j : Nat} {M I : Multiset Conn} {xs : List (Kind α)} {ρ : Nat → Nat}

theorem Setup.done (s : Setup T g n M o g' xs I x j ρ) {δ : Conn → Option Conn} (m : More T g n M o g' xs I x j ρ δ)
    (E : ∀ (W : World α μ) (log : Nat → List (Sent μ)) (v : Nat → Nat → Nat → α), ∃ v', (∀ p < n, v' p = v p) ∧
      ∀ i, i < xs.length → Obeys W g' log v' (n + i))
    (V : ∀ (W : World α μ) (log : Nat → List (Sent μ)) (v v' : Nat → Nat → Nat → α), (∀ t, ∀ e ∈ log t, e.src < n) →
      (∀ p < n, p ≠ o → v' p = v p) → (∀ i, i < xs.length → Obeys W g' (rename ρ log) v' (n + i)) →
      (∃ c ∈ M, c.src = o ∧ c.ty = .f) → ∀ t, v' x j t = rhs W g log v o t) :
    Done T μ g n o g' (n + xs.length) :=
  ⟨_, ρ, δ, s.ready' m, s.lang' m, fun p hp hpo => ⟨(s.mem_ids p).2 (.inl ⟨hp, hpo⟩), s.res.kindOld p (s.ready.below p hp)⟩,
    s.sim' m E V⟩

theorem newEnd_ne {c : Conn} (h : c.src ≠ o) : newEnd o x j c = c := by rw [newEnd, if_neg h]

/-- an operator without outgoing connections is left out -/
theorem drop_done (r : ReadyT T g n M) (hm : o ∈ g.ids) {op : String} {k : α} (hk : g.kind o = .binop op k) (ho : g.outs o 0 = []) :
    ∃ g', g.removeObj o = some g' ∧ Done T μ g n o g' n := by
  have hl : (g.kind o).lang := by rw [hk]; rfl
  obtain ⟨g', e1, e2, e3, e4⟩ := drop_ok r.wired r.clean (r.lets o hm hl) ho
  have hno : ∀ c ∈ M, c.src ≠ o := by
    intro c hc h
    have : c ∈ fromObj M o := Multiset.mem_filter.2 ⟨hc, h⟩
    rw [e3] at this
    simp at this
  have hD : Dead g o := .mk o op k hk fun c hc => by rw [ho] at hc; simp at hc
  have haf : ∀ c, c ∈ after M o 0 0 0 ↔ c ∈ M ∧ c.dst ≠ o := by
    intro c
    rw [mem_after]
    constructor
    · rintro (⟨h1, -, h3⟩ | h | ⟨e, h1, h2, -⟩)
      · exact ⟨h1, h3⟩
      · simp at h
      · exact absurd h2 (hno e h1)
    · exact fun h => .inl ⟨h.1, hno c h.1, h.2⟩
  have s : Setup T g n M o g' [] 0 0 0 id := by
    refine ⟨r, hm, hl, e2, by simp, by simp, fun q p _ c hc _ => ?_⟩
    rw [newEnd_ne (hno c hc)]; rfl
  have m : More T g n M o g' [] 0 0 0 id (fun c => if c.dst = o then none else some c) := by
    refine ⟨by simp, fun e he h => absurd h (hno e he), ?_, ?_, by simp, ?_, fun _ _ => rfl, ?_, fun _ _ _ _ => hD, ?_, ?_, ?_⟩
    · obtain ⟨rk, h⟩ := r.rank
      exact ⟨rk, fun c hc => h c ((haf c).1 hc).1⟩
    · refine fun τ hτ => ⟨by simp, fun c hc => ?_⟩
      have h1 := ((haf c).1 hc).1
      rw [s.res.kindOld _ (r.clean.src c h1), s.res.kindOld _ (r.clean.dst c h1)]
      exact (r.typed τ hτ).1 c h1
    · intro c hc _
      exact ⟨c, ((haf c).1 hc).1, rfl, rfl, rfl⟩
    · exact r.below o hm
    · intro _
      refine .inl ⟨fun h => ?_, hD⟩
      rcases (s.mem_ids o).1 h with ⟨-, h⟩ | ⟨i, h, -⟩
      · exact h rfl
      · simp at h
    · intro p _ j
      show ctl (g'.outs p j) = _
      rw [e4]
      unfold ctl
      induction g.outs p j with
      | nil => rfl
      | cons c l ih =>
        by_cases h1 : c.dst = o <;> by_cases h2 : c.ty = .c <;> simp [List.filter_cons, h1, h2, ih] at ih ⊢ <;> exact ih
    · intro c hc _
      by_cases h : c.dst = o
      · simp only [if_pos h]
        exact ⟨fun _ => by rw [h]; exact hD, by simp⟩
      · simp only [if_neg h]
        refine ⟨by simp, fun c' h' => ?_⟩
        simp only [Option.some.injEq] at h'
        subst h'
        exact ⟨.inl rfl, fun _ => ⟨rfl, rfl⟩⟩
  refine ⟨g', e1, s.done m ?_ ?_⟩
  · intro W log v
    exact ⟨v, fun _ _ => rfl, by simp⟩
  · rintro W log v v' - - - ⟨c, hc, hs, -⟩
    exact absurd hs (hno c hc)

/-- an operator that does not change the only signal is left out -/
theorem pass_done (r : ReadyT T g n M) (hm : o ∈ g.ids) {op : String} {k : α} (hk : g.kind o = .binop op k) (c : Conn)
    (hi : intoObj M o = {c}) (hne : g.outs o 0 ≠ []) (hf : c.ty = .f) (hout : ∀ v ∈ M, v.src = o → v.ty = .f)
    (hr : ∀ (W : World α μ) (log : Nat → List (Sent μ)) v t, rhs W g log v o t = v c.src c.outlet t) :
    ∃ g1 g', g.updates [(some c, (g.outs o 0).map fun v => { c with dst := v.dst, inlet := v.inlet })] = some g1 ∧
      g1.removeObj o = some g' ∧ Done T μ g n o g' n := by
  have hl : (g.kind o).lang := by rw [hk]; rfl
  obtain ⟨g1, g', e1, e2, e3, e4⟩ := pass_ok r.wired r.clean (r.lets o hm hl) c hi hne (by rw [hf]; decide) (by
    intro v hv
    have := Multiset.mem_filter.1 hv
    rw [hf]; exact hout v this.1 this.2)
  have hcM : c ∈ M ∧ c.dst = o := by
    have : c ∈ intoObj M o := by rw [hi]; simp
    exact Multiset.mem_filter.1 this
  have hco : c.src ≠ o := fun h => r.loop c hcM.1 (h.trans hcM.2.symm)
  have honly : ∀ d ∈ M, d.dst = o → d = c := by
    intro d hd h
    have : d ∈ intoObj M o := Multiset.mem_filter.2 ⟨hd, h⟩
    rw [hi] at this
    simpa using this
  obtain ⟨rk, hrk⟩ := r.rank
  have s : Setup T g n M o g' [] 0 c.src c.outlet id := by
    refine ⟨r, hm, hl, e3, by simp, by simp, fun q p _ d hd hty => ?_⟩
    rw [newEnd_ne]
    · rfl
    · intro h
      rw [hout d hd h] at hty
      exact absurd hty (by decide)
  have m : More T g n M o g' [] 0 c.src c.outlet id some := by
    refine ⟨by simp, ?_, ?_, ?_, by simp, ?_, fun _ _ => rfl, ?_, ?_, ?_, ?_, ?_⟩
    · intro e he h
      refine ⟨(s.mem_ids _).2 (.inl ⟨(r.ends c hcM.1).1, hco⟩), fun h2 => ?_⟩
      have q1 := (hrk c hcM.1).1 hf
      have q2 := (hrk e he).1 (hout e he h)
      rw [hcM.2] at q1
      rw [h, ← h2] at q2
      omega
    · refine ⟨rk, fun d hd => ?_⟩
      rcases mem_after.1 hd with ⟨h1, -, -⟩ | h | ⟨e, h1, h2, rfl⟩
      · exact hrk d h1
      · simp at h
      · have q1 := (hrk c hcM.1).1 hf
        have q2 := (hrk e h1).1 (hout e h1 h2)
        rw [hcM.2] at q1
        rw [h2] at q2
        exact ⟨fun _ => q1.trans q2, fun _ => (q1.trans q2).le, fun _ _ _ => q1.trans q2⟩
    · refine fun τ hτ => ⟨by simp, fun d hd => ?_⟩
      rcases mem_after.1 hd with ⟨h1, -, -⟩ | h | ⟨e, h1, h2, rfl⟩
      · rw [s.res.kindOld _ (r.clean.src d h1), s.res.kindOld _ (r.clean.dst d h1)]
        exact (r.typed τ hτ).1 d h1
      · simp at h
      · have q1 := ((r.typed τ hτ).1 c hcM.1).1
        have q2 := ((r.typed τ hτ).1 e h1).2
        rw [hf, ← hout e h1 h2] at q1
        simp only [Conn.startAt]
        rw [s.res.kindOld _ (r.clean.src c hcM.1), s.res.kindOld _ (r.clean.dst e h1)]
        exact ⟨q1, q2⟩
    · intro d hd _
      rcases mem_after.1 hd with ⟨h1, -, -⟩ | h | ⟨e, h1, h2, rfl⟩
      · exact ⟨d, h1, rfl, rfl, rfl⟩
      · simp at h
      · exact ⟨c, hcM.1, rfl, rfl, hf.trans (hout e h1 h2).symm⟩
    · exact r.below o hm
    · intro d hd hdo hall
      refine .mk o op k hk fun v hv => ?_
      obtain ⟨h1, h2, -⟩ := r.wired.mem_outs.1 hv
      have hdc := honly d hd hdo
      subst hdc
      exact (hall (Conn.startAt d.src d.outlet v) (mem_after.2 (.inr (.inr ⟨v, h1, h2, rfl⟩))) ⟨rfl, rfl⟩).2
    · intro hq
      exfalso
      have := hq.1 c.inlet
      unfold hasSignal at this
      rw [List.any_eq_false] at this
      exact this c (r.wired.mem_ins.2 ⟨hcM.1, hcM.2, rfl⟩) (by simp [hf])
    · intro p _ j
      show ctl (g'.outs p j) = _
      rw [e4, List.filterMap_some]
      split
      · rename_i h
        obtain ⟨rfl, rfl⟩ := h
        symm
        unfold ctl
        rw [List.filter_eq_nil_iff]
        intro v hv
        obtain ⟨h1, h2, -⟩ := r.wired.mem_outs.1 hv
        rw [hout v h1 h2]
        decide
      · rfl
    · intro d _ _
      refine ⟨by simp, fun c' h' => ?_⟩
      simp only [Option.some.injEq] at h'
      subst h'
      exact ⟨.inl rfl, fun _ => ⟨rfl, rfl⟩⟩
  refine ⟨g1, g', e1, e2, s.done m ?_ ?_⟩
  · intro W log v
    exact ⟨v, fun _ _ => rfl, by simp⟩
  · rintro W log v v' - hv - - t
    rw [hr, hv c.src (r.clean.src c hcM.1) hco]

/-- let a connection go somewhere else -/
def toward (a i : Nat) (c : Conn) : Conn := { c with dst := a, inlet := i }

/-- the connections into the new objects -/
def newIns (L0 L1 : List Conn) (a i b k : Nat) (E1 E2 : List Conn) : Multiset Conn :=
  ↑(L0.map (toward a i) ++ L1.map (toward b k)) + (↑E1 + ↑E2)

theorem mem_newIns {L0 L1 E1 E2 : List Conn} {a i b k : Nat} {c : Conn} : c ∈ newIns L0 L1 a i b k E1 E2 ↔
    (∃ d ∈ L0, c = toward a i d) ∨ (∃ d ∈ L1, c = toward b k d) ∨ c ∈ E1 ++ E2 := by
  unfold newIns
  rw [Multiset.mem_add, Multiset.coe_add, Multiset.mem_coe, Multiset.mem_coe, List.mem_append, List.mem_map, List.mem_map, or_assoc]
  constructor
  · rintro (⟨d, h, rfl⟩ | ⟨d, h, rfl⟩ | h)
    · exact .inl ⟨d, h, rfl⟩
    · exact .inr (.inl ⟨d, h, rfl⟩)
    · exact .inr (.inr h)
  · rintro (⟨d, h, rfl⟩ | ⟨d, h, rfl⟩ | h)
    · exact .inl ⟨d, h, rfl⟩
    · exact .inr (.inl ⟨d, h, rfl⟩)
    · exact .inr (.inr h)

theorem build_done (r : ReadyT T g n M) (hm : o ∈ g.ids) (hl : (g.kind o).lang) (xs : List (Kind α)) (a i b k x : Nat)
    (L0 L1 E1 E2 : List Conn) (hL : (↑(L0 ++ L1) : Multiset Conn) = intoObj M o) (h0 : ∀ c ∈ L0, c.ty = .c → c.inlet = 0)
    (h1 : ∀ c ∈ L1, c.ty = .c → c.inlet ≠ 0) (ha : n ≤ a ∧ a < n + xs.length) (hb : n ≤ b ∧ b < n + xs.length)
    (hx : n ≤ x ∧ x < n + xs.length)
    (hE : ∀ e ∈ E1 ++ E2, e.ty = .f ∧ n ≤ e.src ∧ e.src < n + xs.length ∧ e.src ≠ x ∧ e.dst = x ∧ e.src ≠ a ∧ e.src ≠ b)
    (hs0 : ∀ c ∈ L0, c.ty = .f → a = x) (hs1 : ∀ c ∈ L1, c.ty = .f → b = x)
    (hk : ∀ (i : Nat) (y : Kind α), xs[i]? = some y → y.lang = false ∧ (∀ s, y ≠ .other s) ∧ ((∀ s, y ≠ .send s) ∧ (∀ s, y ≠ .receive s) ∧ ∀ z, y ≠ .varWrite z) ∧
      (n + i ≠ x → (∃ k, y = .varK k) ∨ (∃ k, y = .varS k) ∨ (∃ z, y = .varRead z)) ∧
      ∀ z, y = .varRead z → ∃ q k, z = n + q ∧ xs[q]? = some (.varS k))
    (hq : Quiet g o → ∃ y, xs[x - n]? = some y ∧ Stands (g.kind o) y ∧ a = x ∧ i = 0 ∧ b = x ∧ ∀ c ∈ L1, k = c.inlet)
    (hT : ∀ τ, T = some τ → (∀ y ∈ xs, y.made) ∧ ∃ ya yb yx, xs[a - n]? = some ya ∧ xs[b - n]? = some yb ∧ xs[x - n]? = some yx ∧
      (∀ c ∈ L0, ya.dst τ a i c.ty) ∧ (∀ c ∈ L1, yb.dst τ b k c.ty) ∧ (∀ c ∈ M, c.src = o → yx.src τ x 0 c.ty) ∧
      ∀ e ∈ E1 ++ E2, (∃ y, xs[e.src - n]? = some y ∧ y.src τ e.src e.outlet e.ty) ∧ yx.dst τ x e.inlet e.ty)
    (V : ∀ g', Setup T g n M o g' xs (newIns L0 L1 a i b k E1 E2) x 0 (fun p => if p = o then x else p) →
      ∀ (W : World α μ) (log : Nat → List (Sent μ)) (v v' : Nat → Nat → Nat → α), (∀ t, ∀ e ∈ log t, e.src < n) →
      (∀ p < n, p ≠ o → v' p = v p) →
      (∀ i, i < xs.length → Obeys W g' (rename (fun p => if p = o then x else p) log) v' (n + i)) →
      (∃ c ∈ M, c.src = o ∧ c.ty = .f) → ∀ t, v' x 0 t = rhs W g log v o t) :
    ∃ g1 g', (g.addObjs n xs).updates ((E1.map fun e => (none, [e])) ++ (toIn L0 a i ++ toIn L1 b k) ++
        fromOut (g.outs o 0) x ++ E2.map fun e => (none, [e])) = some g1 ∧ g1.removeObj o = some g' ∧
      Done T μ g n o g' (n + xs.length) := by
  have hon := r.below o hm
  set prs : List (Conn × Conn) := L0.map (fun c => (c, toward a i c)) ++ L1.map (fun c => (c, toward b k c)) with hprs
  have hp1 : prs.map (·.1) = L0 ++ L1 := by simp [hprs, Function.comp_def]
  have hp2 : prs.map (·.2) = L0.map (toward a i) ++ L1.map (toward b k) := by simp [hprs, Function.comp_def]
  have hmem : ∀ c, c ∈ L0 ∨ c ∈ L1 ↔ c ∈ M ∧ c.dst = o := by
    intro c
    have : c ∈ intoObj M o ↔ c ∈ L0 ∨ c ∈ L1 := by rw [← hL, Multiset.mem_coe, List.mem_append]
    rw [← this, intoObj, Multiset.mem_filter]
  obtain ⟨g1, g', e1, e2, e3, e4, e5⟩ := build_ok r.wired r.clean (r.lets o hm hl) hon xs x hx.1 prs (by rw [hp1]; exact hL) (by
    intro pr hpr
    rcases List.mem_append.1 hpr with h | h
    · obtain ⟨c, -, rfl⟩ := List.mem_map.1 h
      exact ⟨⟨rfl, rfl⟩, ha.1⟩
    · obtain ⟨c, -, rfl⟩ := List.mem_map.1 h
      exact ⟨⟨rfl, rfl⟩, hb.1⟩) E1 E2 (by
    intro e he
    obtain ⟨q1, q2, q3, q4, q5, -⟩ := hE e he
    exact ⟨by rw [q1]; decide, q2, by rw [q5]; exact hx.1⟩)
  rw [hp2] at e3
  have e4' := e4 (fun c => if c.inlet = 0 then toward a i c else toward b k c) (by
    intro pr hpr
    rcases List.mem_append.1 hpr with h | h
    · obtain ⟨c, hc, rfl⟩ := List.mem_map.1 h
      by_cases hty : c.ty = .c
      · left; refine ⟨hty, ?_, ?_⟩ <;> simp only [h0 c hc hty, if_true]; exact hty
      · right; exact ⟨hty, hty⟩
    · obtain ⟨c, hc, rfl⟩ := List.mem_map.1 h
      by_cases hty : c.ty = .c
      · left; refine ⟨hty, ?_, ?_⟩ <;> simp only [h1 c hc hty, if_false]; exact hty
      · right; exact ⟨hty, hty⟩)
  have hIL : ∀ e ∈ newIns L0 L1 a i b k E1 E2,
      (∃ d ∈ M, d.dst = o ∧ e.src = d.src ∧ e.outlet = d.outlet ∧ e.ty = d.ty ∧ (e.dst = a ∨ e.dst = b) ∧
        (e.ty = .f → e.dst = x)) ∨ e ∈ E1 ++ E2 := by
    intro e he
    rcases mem_newIns.1 he with ⟨d, hd, rfl⟩ | ⟨d, hd, rfl⟩ | h
    · have := (hmem d).1 (.inl hd)
      exact .inl ⟨d, this.1, this.2, rfl, rfl, rfl, .inl rfl, hs0 d hd⟩
    · have := (hmem d).1 (.inr hd)
      exact .inl ⟨d, this.1, this.2, rfl, rfl, rfl, .inr rfl, hs1 d hd⟩
    · exact .inr h
  have s : Setup T g n M o g' xs (newIns L0 L1 a i b k E1 E2) x 0 (fun p => if p = o then x else p) := by
    refine ⟨r, hm, hl, e3, ?_, fun i y hy => ⟨fun m => (hk i y hy).2.2.1.1 m, fun z => (hk i y hy).2.2.1.2.2 z⟩, ?_⟩
    · intro e he
      rcases hIL e he with ⟨d, -, -, -, -, -, h | h, -⟩ | h
      · omega
      · omega
      · have := (hE e h).2.2.2.2.1; omega
    · intro q p hqn c hc hty
      have hcn := r.clean.src c hc
      by_cases hco : c.src = o
      · rw [newEnd, if_pos hco]
        have := (r.lets o hm hl).outlet c hc hco
        simp only [Conn.startAt, hco, this]
        by_cases hqo : q = o
        · simp [hqo]
        · simp only [if_neg hqo]
          constructor
          · rintro ⟨h, -⟩; omega
          · rintro ⟨h, -⟩; exact absurd h.symm hqo
      · rw [newEnd_ne hco]
        by_cases hqo : q = o
        · simp only [if_pos hqo]
          constructor
          · rintro ⟨h, -⟩; omega
          · rintro ⟨h, -⟩; exact absurd (h.trans hqo) hco
        · simp only [if_neg hqo]
  have hnew : ∀ q, q < xs.length → n + q ∈ g'.ids := fun q h => (s.mem_ids _).2 (.inr ⟨q, h, rfl⟩)
  have hnew' : ∀ q, n ≤ q ∧ q < n + xs.length → q ∈ g'.ids := fun q h => by
    have := hnew (q - n) (by omega)
    rwa [show n + (q - n) = q by omega] at this
  have hkn : ∀ q, n ≤ q ∧ q < n + xs.length → (g'.kind q).lang = false := by
    intro q h
    obtain ⟨y, hy⟩ : ∃ y, xs[q - n]? = some y := ⟨xs[q - n]'(by omega), List.getElem?_eq_getElem (by omega)⟩
    have := s.res.kindNew _ y hy
    rw [show n + (q - n) = q by omega] at this
    rw [this]; exact (hk _ y hy).1
  have hxo : x ≠ o := by omega
  have m : More T g n M o g' xs (newIns L0 L1 a i b k E1 E2) x 0 (fun p => if p = o then x else p)
      (fun c => some (redirect o (fun c => if c.inlet = 0 then toward a i c else toward b k c) (newEnd o x 0 c))) := by
    refine ⟨?_, ?_, ?_, ?_, ?_, ?_, ?_, ?_, ?_, ?_, ?_, ?_⟩
    · intro e he
      rcases hIL e he with ⟨d, h1, h2, h3, h4, h5, h6, -⟩ | h
      · have q1 := (r.ends d h1).1
        have q2 := r.loop d h1
        have q3 := r.below _ q1
        refine ⟨?_, ?_, ?_, ?_⟩
        · rw [h3]; exact (s.mem_ids _).2 (.inl ⟨q1, by rw [← h2]; exact q2⟩)
        · rcases h6 with h | h <;> rw [h]
          · exact hnew' a ha
          · exact hnew' b hb
        · rw [h3]; omega
        · rw [h5]; exact r.floats d h1
      · obtain ⟨q1, q2, q3, q4, q5, -⟩ := hE e h
        exact ⟨hnew' _ ⟨q2, q3⟩, by rw [q5]; exact hnew' x hx, by rw [q5]; exact q4, by rw [q1]; decide⟩
    · intro e he _
      have := r.clean.dst e he
      exact ⟨hnew' x hx, by omega⟩
    · obtain ⟨rk, hrk⟩ := r.rank
      refine ⟨fun p => if p < n then rk p else if p = x ∨ p = a ∨ p = b then rk o else rk o - 1, fun c hc => ?_⟩
      have hxn : ¬ x < n := by omega
      have han : ¬ a < n := by omega
      have hbn : ¬ b < n := by omega
      rcases mem_after.1 hc with ⟨h1, -, -⟩ | h | ⟨e, h1, h2, rfl⟩
      · simp only [r.clean.src c h1, r.clean.dst c h1, if_true]
        exact hrk c h1
      · rcases hIL c h with ⟨d, q1, q2, q3, q4, q5, q6, q7⟩ | h
        · have h4 := hrk d q1
          rw [q2, ← q5] at h4
          rw [q3]
          rcases q6 with q6 | q6 <;> rw [q6] <;> simpa [r.clean.src d q1, han, hbn] using h4
        · obtain ⟨q1, q2, q3, q4, q5, q7⟩ := hE c h
          have q6 : ¬ c.src < n := by omega
          rw [q5]
          simp only [q6, hxn, q4, q7.1, q7.2, if_true, if_false, true_or, false_or]
          exact ⟨fun _ => by omega, fun _ => by omega, fun _ _ _ => by omega⟩
      · have := hrk e h1
        simp only [Conn.startAt, hxn, r.clean.dst e h1, if_true, if_false, true_or]
        rw [← h2]
        exact this
    · intro τ hτ
      obtain ⟨t0, ya, yb, yx, t1, t2, t3, t4, t5, t6, t7⟩ := hT τ hτ
      refine ⟨t0, fun c hc => ?_⟩
      have kn : ∀ q y, n ≤ q → xs[q - n]? = some y → g'.kind q = y := by
        intro q y hq h
        have := s.res.kindNew _ y h
        rwa [show n + (q - n) = q by omega] at this
      rcases mem_after.1 hc with ⟨h1, -, -⟩ | h | ⟨e, h1, h2, rfl⟩
      · rw [s.res.kindOld _ (r.clean.src c h1), s.res.kindOld _ (r.clean.dst c h1)]
        exact (r.typed τ hτ).1 c h1
      · rcases mem_newIns.1 h with ⟨d, hd, rfl⟩ | ⟨d, hd, rfl⟩ | h
        · have hdM := ((hmem d).1 (.inl hd)).1
          simp only [toward]
          rw [s.res.kindOld _ (r.clean.src d hdM), kn a ya ha.1 t1]
          exact ⟨((r.typed τ hτ).1 d hdM).1, t4 d hd⟩
        · have hdM := ((hmem d).1 (.inr hd)).1
          simp only [toward]
          rw [s.res.kindOld _ (r.clean.src d hdM), kn b yb hb.1 t2]
          exact ⟨((r.typed τ hτ).1 d hdM).1, t5 d hd⟩
        · obtain ⟨q1, q2, q3, q4, q5, -⟩ := hE c h
          obtain ⟨⟨y, y1, y2⟩, y3⟩ := t7 c h
          rw [q5, kn c.src y q2 y1, kn x yx hx.1 t3]
          exact ⟨y2, y3⟩
      · simp only [Conn.startAt]
        rw [kn x yx hx.1 t3, s.res.kindOld _ (r.clean.dst e h1)]
        exact ⟨t6 e h1 h2, ((r.typed τ hτ).1 e h1).2⟩
    · intro q y hy
      refine ⟨(hk q y hy).1, fun z hz => ?_⟩
      obtain ⟨q', k', rfl, h⟩ := (hk q y hy).2.2.2.2 z hz
      obtain ⟨hlt, -⟩ := List.getElem?_eq_some_iff.1 h
      exact ⟨hnew q' hlt, k', s.res.kindNew _ _ h⟩
    · intro c hc hcn
      rcases mem_after.1 hc with ⟨h1, -, -⟩ | h | ⟨e, h1, h2, rfl⟩
      · exact ⟨c, h1, rfl, rfl, rfl⟩
      · rcases hIL c h with ⟨d, q1, q2, q3, q4, q5, q6, q7⟩ | h
        · exact ⟨d, q1, q3.symm, q4.symm, q5.symm⟩
        · have := (hE c h).2.1; omega
      · have : x < n := hcn
        omega
    · intro p hp; exact if_neg hp
    · simp only [if_true]; exact hx.2
    · intro c hc hco hall
      exfalso
      rcases (hmem c).2 ⟨hc, hco⟩ with h | h
      · have := (hall (toward a i c) (mem_after.2 (.inr (.inl (mem_newIns.2 (.inl ⟨c, h, rfl⟩))))) ⟨rfl, rfl⟩).1
        rw [show (toward a i c).dst = a from rfl, hkn a ha] at this
        simp at this
      · have := (hall (toward b k c) (mem_after.2 (.inr (.inl (mem_newIns.2 (.inr (.inl ⟨c, h, rfl⟩)))))) ⟨rfl, rfl⟩).1
        rw [show (toward b k c).dst = b from rfl, hkn b hb] at this
        simp at this
    · intro hqo
      obtain ⟨y, hy, hst, -⟩ := hq hqo
      simp only [if_true]
      have := s.res.kindNew _ _ hy
      rw [show n + (x - n) = x by omega] at this
      exact .inr ⟨hnew' x hx, by rw [this]; exact hst⟩
    · intro p hp j
      by_cases hpo : p = o
      · subst hpo
        simp only [if_true]
        by_cases hj : j = 0
        · subst hj
          rw [e5, ← List.filterMap_eq_map]
          refine List.filterMap_congr fun c hc => ?_
          obtain ⟨q1, q2, -⟩ := r.wired.mem_outs.1 (List.mem_of_mem_filter hc)
          have q3 := r.loop c q1
          simp only [newEnd, q2, if_true, redirect, Function.comp]
          rw [if_neg]
          show ¬ c.dst = p
          omega
        · have w1 : g.outs p j = [] := by
            rw [List.eq_nil_iff_forall_not_mem]
            intro c hc
            obtain ⟨q1, q2, q3⟩ := r.wired.mem_outs.1 hc
            exact hj (q3.symm.trans ((r.lets p hm hl).outlet c q1 q2))
          have w2 : g'.outs x j = [] := by
            rw [List.eq_nil_iff_forall_not_mem]
            intro c hc
            obtain ⟨q1, q2, q3⟩ := s.res.wired.mem_outs.1 hc
            rcases mem_after.1 q1 with ⟨h1, -, -⟩ | h | ⟨e, h1, h2, rfl⟩
            · have := r.clean.src c h1; omega
            · rcases hIL c h with ⟨d, f1, f2, f3, -⟩ | h
              · have := r.clean.src d f1; omega
              · exact (hE c h).2.2.2.1 q2
            · exact hj q3.symm
          rw [w1, w2]; rfl
      · simp only [if_neg hpo]
        rw [e4' p j hp hpo, ← List.filterMap_eq_map]
        refine List.filterMap_congr fun c hc => ?_
        obtain ⟨q1, q2, -⟩ := r.wired.mem_outs.1 (List.mem_of_mem_filter hc)
        rw [newEnd_ne (by omega)]
        rfl
    · intro c hc hty
      refine ⟨by simp, fun c' h' => ?_⟩
      simp only [Option.some.injEq] at h'
      subst h'
      by_cases hco : c.dst = o
      · have hso : c.src ≠ o := fun h => r.loop c hc (h.trans hco.symm)
        rw [newEnd_ne hso, redirect, if_pos hco]
        constructor
        · right
          split
          · exact hkn a ha
          · exact hkn b hb
        · intro hq'
          rw [hco] at hq'
          rcases hq' with h | h
          · rw [hl] at h; simp at h
          · obtain ⟨y, -, -, f1, f2, f3, f4⟩ := hq h
            simp only [hco, if_true]
            rcases (hmem c).2 ⟨hc, hco⟩ with h | h
            · have := h0 c h hty
              rw [if_pos this]
              exact ⟨f1, by rw [this]; exact f2⟩
            · have := h1 c h hty
              rw [if_neg this]
              exact ⟨f3, f4 c h⟩
      · have : (newEnd o x 0 c).dst ≠ o := by rw [newEnd_dst]; exact hco
        rw [redirect, if_neg this]
        refine ⟨.inl (newEnd_dst c), fun _ => ⟨?_, newEnd_inlet c⟩⟩
        rw [newEnd_dst, if_neg hco]
  have r' := s.ready' m
  refine ⟨g1, g', ?_, e2, s.done m ?_ (V g' s)⟩
  · rw [← e1, hprs]
    congr 4
    simp [toIn, toward, Function.comp_def]
  · intro W log v
    refine ⟨fun p j t => if p = x then rhs W g' log (fun p j t => if p < n then v p j t else rhs W g' log v p t) x t else
      if p < n then v p j t else rhs W g' log v p t, fun p hp => ?_, fun q hq' => ?_⟩
    · funext j t
      simp only [if_neg (show ¬ p = x by omega), if_pos hp]
    · obtain ⟨y, hy⟩ : ∃ y, xs[q]? = some y := ⟨xs[q], List.getElem?_eq_getElem hq'⟩
      have hky := s.res.kindNew q y hy
      refine obeys_of_rhs ?_ ?_ ?_ ?_
      · intro w; rw [hky]; exact (hk q y hy).2.1 w
      · intro w; rw [hky]; exact (hk q y hy).2.2.1.2.1 w
      · intro z hz
        rw [hky] at hz
        exact ((m.kinds q y hy).2 z hz).2
      · intro t
        by_cases hqx : n + q = x
        · rw [if_pos hqx, hqx]
          refine (rhs_congr fun i' c hc _ => ?_).symm
          obtain ⟨f1, f2, -⟩ := r'.wired.mem_ins.1 hc
          have := r'.loop c f1
          rw [if_neg (by omega)]
        · rw [if_neg hqx, if_neg (by omega)]
          rcases (hk q y hy).2.2.2.1 hqx with ⟨_, rfl⟩ | ⟨_, rfl⟩ | ⟨_, rfl⟩ <;> simp only [rhs, hky]

end

end Verif.Reduce
