import Verif.Props.Reduce
/-!
Proofs for C58: one object.
-/
namespace Verif.Reduce

variable {T : Option Typing} {α μ : Type}

theorem Sim.trans [Field α] [DecidableEq α] {W : World α μ} {g g1 g2 : Graph α} {n n1 n2 : Nat} {ρ ρ' : Nat → Nat}
    {δ δ' : Conn → Option Conn} {M M1 : Multiset Conn}
    (r : ReadyT T g n M) (h1 : Sim W g g1 n n1 ρ δ) (r1 : ReadyT T g1 n1 M1) (h2 : Sim W g1 g2 n1 n2 ρ' δ') :
    Sim W g g2 n n2 (ρ' ∘ ρ) (fun c => (δ c).bind δ') := by
  have hq : ∀ d, d ∈ g.ids → ((g.kind d).lang = false ∨ Quiet g d) → ρ d ∈ g1.ids →
      (g1.kind (ρ d)).lang = false ∨ Quiet g1 (ρ d) := by
    intro d hd h hm
    cases hl : (g.kind d).lang with
    | false => obtain ⟨-, e2, e3⟩ := h1.keep d hd hl; left; rw [e3, e2, hl]
    | true =>
      rw [hl] at h
      rcases h1.quiet d hd hl (h.resolve_left (by simp)) with ⟨e, -⟩ | ⟨-, ⟨-, e2, e3⟩ | e⟩
      · exact absurd hm e
      · right; rw [e2]; exact e3
      · left
        revert e
        cases g.kind d <;> cases g1.kind (ρ d) <;> simp [Stands, Kind.lang]
  have hctl : ∀ p < n, ∀ j, ∀ c ∈ ctl (g.outs p j), ∀ c1, δ c = some c1 → c1 ∈ ctl (g1.outs (ρ p) j) := by
    intro p hp j c hc c1 e
    rw [h1.order p hp j, List.mem_filterMap]
    exact ⟨c, hc, e⟩
  have hend : ∀ p < n, ∀ j, ∀ c ∈ ctl (g.outs p j), c.dst ∈ g.ids := by
    intro p hp j c hc
    exact (r.ends c (r.wired.mem_outs.1 (List.mem_of_mem_filter hc)).1).2
  have hend1 : ∀ p j, ∀ c ∈ ctl (g1.outs p j), c.dst ∈ g1.ids := by
    intro p j c hc
    exact (r1.ends c (r1.wired.mem_outs.1 (List.mem_of_mem_filter hc)).1).2
  constructor
  · exact h1.le.trans h2.le
  · exact fun p hp => h2.bound _ (h1.bound p hp)
  · exact fun p hp h => h2.gone _ (h1.bound p hp) (h1.gone p hp h)
  · intro p hp hl
    obtain ⟨a1, a2, a3⟩ := h1.keep p hp hl
    obtain ⟨b1, b2, b3⟩ := h2.keep p a1 (by rw [a2]; exact hl)
    exact ⟨b1, b2.trans a2, by simp [a3, b3]⟩
  · intro d hd h
    obtain ⟨a1, a2⟩ := h2.dead d hd h
    exact h1.dead d a1 a2
  · intro d hd hl hq'
    simp only [Function.comp]
    rcases h1.quiet d hd hl hq' with ⟨e, e'⟩ | ⟨e1, ⟨e2, e3, e4⟩ | e⟩
    · exact .inl ⟨h2.gone _ (h1.bound d (r.below d hd)) e, e'⟩
    · rw [e3] at e1 ⊢
      rcases h2.quiet d e1 (by rw [e2]; exact hl) e4 with ⟨f, f'⟩ | ⟨f1, ⟨f2, f3, f4⟩ | f⟩
      · exact .inl ⟨f, (h1.dead d e1 f').2⟩
      · exact .inr ⟨f1, .inl ⟨f2.trans e2, f3, f4⟩⟩
      · exact .inr ⟨f1, .inr (e2 ▸ f)⟩
    · have hl1 : (g1.kind (ρ d)).lang = false := by
        revert e
        cases g.kind d <;> cases g1.kind (ρ d) <;> simp [Stands, Kind.lang]
      obtain ⟨b1, b2, b3⟩ := h2.keep _ e1 hl1
      rw [b3]
      exact .inr ⟨b1, .inr (by rw [b2]; exact e)⟩
  · intro p hp j
    simp only [Function.comp]
    rw [h2.order _ (h1.bound p hp), h1.order p hp, List.filterMap_filterMap]
  · intro p hp j c hc
    have m1 := h1.moved p hp j c hc
    constructor
    · intro hn
      cases e : δ c with
      | none => exact m1.1 e
      | some c1 =>
        rw [e] at hn
        have hc1 := hctl p hp j c hc c1 e
        have hd1 := (h2.moved _ (h1.bound p hp) j c1 hc1).1 hn
        obtain ⟨-, hd⟩ := h1.dead _ (hend1 _ _ _ hc1) hd1
        rcases (m1.2 c1 e).1 with h | h
        · rwa [h] at hd
        · exfalso
          cases hd1 with
          | mk _ op k hk _ => rw [hk] at h; simp [Kind.lang] at h
    · intro c2 hn
      cases e : δ c with
      | none => rw [e] at hn; simp at hn
      | some c1 =>
        rw [e] at hn
        have hc1 := hctl p hp j c hc c1 e
        have m2 := (h2.moved _ (h1.bound p hp) j c1 hc1).2 c2 hn
        constructor
        · rcases (m1.2 c1 e).1 with h | h
          · rw [← h]; exact m2.1
          · obtain ⟨b1, b2, b3⟩ := h2.keep _ (hend1 _ _ _ hc1) h
            right
            rw [(m2.2 (.inl h)).1, b3, b2, h]
        · intro hq'
          obtain ⟨a1, a2⟩ := (m1.2 c1 e).2 hq'
          have hm := hend1 _ _ _ hc1
          rw [a1] at hm
          have := m2.2 (by rw [a1]; exact hq c.dst (hend p hp j c hc) hq' hm)
          exact ⟨by rw [this.1, a1]; rfl, this.2.trans a2⟩
  · intro log hlog
    have hlog1 : ∀ t, ∀ e ∈ rename ρ log t, e.src < n1 := by
      intro t e he
      obtain ⟨d, hd, rfl⟩ := List.mem_map.1 he
      exact h1.bound _ (hlog t d hd)
    have hren : rename ρ' (rename ρ log) = rename (ρ' ∘ ρ) log := by
      funext t; simp [rename, Function.comp_def]
    have key : ∀ v v1 v2, Agree g g1 ρ log v v1 → Agree g1 g2 ρ' (rename ρ log) v1 v2 → Agree g g2 (ρ' ∘ ρ) log v v2 := by
      intro v v1 v2 A1 A2 p hp hl
      obtain ⟨a1, a2, -⟩ := h1.keep p hp hl
      have B1 := A1 p hp hl
      have B2 := A2 p a1 (by rw [a2]; exact hl)
      refine ⟨fun j t => (B2.1 j t).trans (B1.1 j t), fun i t => ⟨(B2.2 i t).1.trans (B1.2 i t).1, ?_⟩⟩
      rw [← hren]
      exact (B2.2 i t).2.trans (B1.2 i t).2
    obtain ⟨F1, B1⟩ := h1.signals log hlog
    obtain ⟨F2, B2⟩ := h2.signals _ hlog1
    rw [← hren]
    constructor
    · intro v hv
      obtain ⟨v1, s1, a1⟩ := F1 v hv
      obtain ⟨v2, s2, a2⟩ := F2 v1 s1
      exact ⟨v2, s2, key _ _ _ a1 a2⟩
    · intro v2 hv
      obtain ⟨v1, s1, a1⟩ := B2 v2 hv
      obtain ⟨v, s, a2⟩ := B1 v1 s1
      exact ⟨v, s, key _ _ _ a2 a1⟩

theorem Sim.refl [Field α] {W : World α μ} {g : Graph α} {n : Nat} : Sim W g g n n id some where
  le := Nat.le_refl _
  bound := fun p hp => hp
  gone := fun p _ h => h
  keep := fun p hp _ => ⟨hp, rfl, rfl⟩
  dead := fun d hd h => ⟨hd, h⟩
  quiet := fun d hd _ hq => .inr ⟨hd, .inl ⟨rfl, rfl, hq⟩⟩
  order := fun p _ j => by simp
  moved := fun p _ j c _ => ⟨by simp, fun c' h => by
    simp only [Option.some.injEq] at h; subst h; exact ⟨.inl rfl, fun _ => ⟨rfl, rfl⟩⟩⟩
  signals := fun log _ => by
    have : rename id log = log := by funext t; simp [rename]
    rw [this]
    have A : ∀ v, Agree g g id log v v := fun v p _ _ => ⟨fun _ _ => rfl, fun i t => ⟨rfl, by rw [this]⟩⟩
    exact ⟨fun v hv => ⟨v, hv, A v⟩, fun v hv => ⟨v, hv, A v⟩⟩

/-- a connection of the other objects after the step -/
def newEnd (o x j : Nat) (c : Conn) : Conn := if c.src = o then Conn.startAt x j c else c

/-- one step: the situation -/
structure Setup [DecidableEq α] [Zero α] (T : Option Typing) (g : Graph α) (n : Nat) (M : Multiset Conn) (o : Nat) (g' : Graph α) (xs : List (Kind α))
    (I : Multiset Conn) (x j : Nat) (ρ : Nat → Nat) : Prop where
  ready : ReadyT T g n M
  mem : o ∈ g.ids
  isLang : (g.kind o).lang
  res : Result g n M o g' xs I x j
  into : ∀ e ∈ I, n ≤ e.dst
  plain : ∀ (i : Nat) (y : Kind α), xs[i]? = some y → (∀ m, y ≠ .send m) ∧ ∀ z, y ≠ .varWrite z
  ren : ∀ q p, q < n → ∀ c ∈ M, c.ty = .c → ((newEnd o x j c).src = ρ q ∧ (newEnd o x j c).outlet = p ↔ c.src = q ∧ c.outlet = p)

theorem ReadyT.clean [DecidableEq α] [Zero α] {g : Graph α} {n : Nat} {M : Multiset Conn} (r : ReadyT T g n M) : Clean M n :=
  ⟨fun c hc => r.below _ (r.ends c hc).1, fun c hc => r.below _ (r.ends c hc).2, r.loop⟩

section
variable [DecidableEq α] [Field α] {g g' : Graph α} {n o x j : Nat} {M I : Multiset Conn} {xs : List (Kind α)} {ρ : Nat → Nat}

theorem newEnd_ty (c : Conn) : (newEnd o x j c).ty = c.ty := by unfold newEnd; split <;> rfl
theorem newEnd_dst (c : Conn) : (newEnd o x j c).dst = c.dst := by unfold newEnd; split <;> rfl
theorem newEnd_inlet (c : Conn) : (newEnd o x j c).inlet = c.inlet := by unfold newEnd; split <;> rfl

/-- the inlets of the other objects -/
theorem Setup.old (s : Setup T g n M o g' xs I x j ρ) {d : Nat} (hd : d < n) (hdo : d ≠ o) (i : Nat) :
    Same (newEnd o x j) (g.ins d i) (g'.ins d i) := by
  refine ⟨?_, fun c _ => newEnd_ty c⟩
  rw [s.res.wired.ins, s.ready.wired.ins]
  conv_rhs => rw [s.ready.clean.split o]
  rw [Multiset.filter_add, Multiset.filter_add, Multiset.filter_add, Multiset.filter_add, Multiset.map_add, Multiset.map_add]
  have h1 : (intoObj M o).filter (·.into d i) = 0 := Multiset.filter_eq_nil.2 fun c hc h =>
    hdo (h.1.symm.trans (Multiset.mem_filter.1 hc).2)
  have h2 : I.filter (·.into d i) = 0 := Multiset.filter_eq_nil.2 fun c hc h => by
    have := s.into c hc; have := h.1; omega
  have h3 : ((rest M o).filter (·.into d i)).map (newEnd o x j) = (rest M o).filter (·.into d i) := by
    conv_rhs => rw [← Multiset.map_id ((rest M o).filter (·.into d i))]
    refine Multiset.map_congr rfl fun c hc => ?_
    rw [newEnd, if_neg]
    · rfl
    · exact (Multiset.mem_filter.1 (Multiset.mem_of_mem_filter hc)).2.1
  have h4 : ((fromObj M o).map (Conn.startAt x j)).filter (·.into d i) = ((fromObj M o).filter (·.into d i)).map (newEnd o x j) := by
    rw [Multiset.filter_map]
    refine Multiset.map_congr rfl fun c hc => ?_
    rw [newEnd, if_pos]
    exact (Multiset.mem_filter.1 (Multiset.mem_of_mem_filter hc)).2
  rw [h1, h2, h3, h4, Multiset.map_zero, Multiset.zero_add, Multiset.zero_add, Multiset.add_comm]

/-- the inlets of the new objects -/
theorem Setup.fresh (s : Setup T g n M o g' xs I x j ρ) {d : Nat} (hd : n ≤ d) (i : Nat) :
    (g'.ins d i : Multiset Conn) = I.filter (·.into d i) := by
  rw [s.res.wired.ins, Multiset.filter_add, Multiset.filter_add]
  have h1 : (rest M o).filter (·.into d i) = 0 := Multiset.filter_eq_nil.2 fun c hc h => by
    have := s.ready.clean.dst c (Multiset.mem_of_mem_filter hc); have := h.1; omega
  have h4 : ((fromObj M o).map (Conn.startAt x j)).filter (·.into d i) = 0 := Multiset.filter_eq_nil.2 fun c hc h => by
    obtain ⟨e, he, rfl⟩ := Multiset.mem_map.1 hc
    have := s.ready.clean.dst e (Multiset.mem_of_mem_filter he)
    have : e.dst = d := h.1
    omega
  rw [h1, h4, Multiset.zero_add, Multiset.add_zero]

/-- the signals before and after the step -/
structure Vals (M : Multiset Conn) (n o x j : Nat) (v v' : Nat → Nat → Nat → α) : Prop where
  old : ∀ p, p < n → p ≠ o → ∀ j t, v' p j t = v p j t
  out : ∀ c ∈ M, c.src = o → c.ty = .f → ∀ t, v' x j t = v o c.outlet t

theorem Setup.inSum (s : Setup T g n M o g' xs I x j ρ) {v v' : Nat → Nat → Nat → α} (h : Vals M n o x j v v') {d : Nat} (hd : d < n)
    (hdo : d ≠ o) (i t : Nat) : inSum v' (g'.ins d i) t = inSum v (g.ins d i) t := by
  refine (s.old hd hdo i).inSum fun c hc hf => ?_
  have hm := (s.ready.wired.mem_ins.1 hc).1
  unfold newEnd
  split
  · rename_i e; rw [e]; exact h.out c hm e hf t
  · rename_i e; exact h.old _ (s.ready.clean.src c hm) e _ _

theorem Setup.received (s : Setup T g n M o g' xs I x j ρ) {log : Nat → List (Sent μ)} (hlog : ∀ t, ∀ e ∈ log t, e.src < n)
    {d : Nat} (hd : d < n) (hdo : d ≠ o) (i t : Nat) :
    received (rename ρ log t) (g'.ins d i) = received (log t) (g.ins d i) := by
  refine (s.old hd hdo i).received fun e he c hc hty => ?_
  exact s.ren e.src e.outlet (hlog t e he) c (s.ready.wired.mem_ins.1 hc).1 hty

theorem Setup.mem_ids (s : Setup T g n M o g' xs I x j ρ) (p : Nat) :
    p ∈ g'.ids ↔ (p ∈ g.ids ∧ p ≠ o) ∨ ∃ i, i < xs.length ∧ p = n + i := by
    rw [s.res.ids, List.erase_append_left _ s.mem, List.mem_append, s.ready.nodup.mem_erase_iff, List.mem_range']
    simp only [Nat.one_mul]
    constructor
    · rintro (⟨a, b⟩ | h)
      · exact .inl ⟨b, a⟩
      · exact .inr h
    · rintro (⟨a, b⟩ | h)
      · exact .inl ⟨b, a⟩
      · exact .inr h

theorem mem_senders {g : Graph α} {name : String} {q : Nat} : q ∈ g.senders name ↔ q ∈ g.ids ∧ g.kind q = .send name := by
  unfold Graph.senders
  rw [List.mem_filter]
  refine and_congr Iff.rfl ?_
  cases g.kind q <;> simp [Kind.sends]

/-- the senders stay the same -/
theorem Setup.senders (s : Setup T g n M o g' xs I x j ρ) (name : String) : g'.senders name = g.senders name := by
  unfold Graph.senders
  rw [s.res.ids, List.erase_append_left _ s.mem, List.filter_append]
  have h1 : (List.range' n xs.length).filter (fun q => (g'.kind q).sends name) = [] := by
    rw [List.filter_eq_nil_iff]
    intro q hq
    obtain ⟨i, hi, rfl⟩ := List.mem_range'.1 hq
    rw [Nat.one_mul]
    obtain ⟨z, hz⟩ : ∃ y, xs[i]? = some y := ⟨xs[i], List.getElem?_eq_getElem hi⟩
    rw [s.res.kindNew i z hz]
    have := (s.plain i z hz).1
    cases z with
    | send m => exact absurd rfl (this m)
    | _ => simp [Kind.sends]
  have h2 : (g.kind o).sends name = false := by
    have := s.isLang
    cases hk : g.kind o with
    | send m => rw [hk] at this; simp [Kind.lang] at this
    | _ => rfl
  rw [h1, List.append_nil, ← List.erase_of_not_mem (a := o) (l := List.filter _ g.ids), ← List.erase_filter]
  · congr 1
    refine List.filter_congr fun q hq => ?_
    rw [s.res.kindOld q (s.ready.below q hq)]
  · intro h
    have h3 := (List.mem_filter.1 h).2
    rw [h2] at h3
    simp at h3

/-- the other objects -/
theorem Setup.obeys (s : Setup T g n M o g' xs I x j ρ) (W : World α μ) {log : Nat → List (Sent μ)}
    (hlog : ∀ t, ∀ e ∈ log t, e.src < n) {v v' : Nat → Nat → Nat → α} (h : Vals M n o x j v v') {d : Nat} (hm : d ∈ g.ids)
    (hdo : d ≠ o) : Obeys W g' (rename ρ log) v' d ↔ Obeys W g log v d := by
  have hd := s.ready.below d hm
  have e1 := fun i t => s.inSum h hd hdo i t
  have e2 := fun i t => s.received hlog hd hdo i t
  have e3 := fun i => (s.old hd hdo i).hasSignal
  have e4 := fun j t => h.old d hd hdo j t
  unfold Obeys
  rw [s.res.kindOld d hd]
  cases hk : g.kind d with
  | varRead y =>
    have hids := s.mem_ids
    obtain ⟨hy, hk2⟩ := s.ready.reads d hm y hk
    have hyo : y ≠ o := by
      rintro rfl
      have := s.isLang
      rcases hk2 with ⟨k, hk2⟩ | ⟨hk2, -⟩ <;> (rw [hk2] at this; simp [Kind.lang] at this)
    simp only [s.res.kindOld y (s.ready.below y hy), e4, s.received hlog (s.ready.below y hy) hyo]
    refine or_congr Iff.rfl ⟨?_, ?_⟩
    · rintro ⟨w, a, b, c, e⟩
      have hw : w ∈ g.ids ∧ w ≠ o := by
        rcases (hids w).1 a with h | ⟨i, hi, rfl⟩
        · exact h
        · obtain ⟨z, hz⟩ : ∃ y, xs[i]? = some y := ⟨xs[i], List.getElem?_eq_getElem hi⟩
          rw [s.res.kindNew i z hz] at b
          exact absurd b ((s.plain i z hz).2 y)
      have hwn := s.ready.below w hw.1
      refine ⟨w, hw.1, by rw [← s.res.kindOld w hwn]; exact b, c, fun t => ?_⟩
      rw [e t]
      exact congrFun (congrArg (lagged W w d) (funext fun t => s.inSum h hwn hw.2 0 t)) t
    · rintro ⟨w, a, b, c, e⟩
      have hwo : w ≠ o := by
        rintro rfl
        have := s.isLang
        rw [b] at this
        simp [Kind.lang] at this
      have hwn := s.ready.below w a
      refine ⟨w, (hids w).2 (.inl ⟨a, hwo⟩), by rw [s.res.kindOld w hwn]; exact b, c, fun t => ?_⟩
      rw [e t]
      exact congrFun (congrArg (lagged W w d) (funext fun t => (s.inSum h hwn hwo 0 t).symm)) t
  | receive name =>
    simp only [e4, s.senders]
    refine forall_congr' fun t => ?_
    have : ((g.senders name).map fun q => lagged W q d (Reduce.inSum v' (g'.ins q 0)) t) =
        (g.senders name).map fun q => lagged W q d (Reduce.inSum v (g.ins q 0)) t := by
      refine List.map_congr_left fun q hq => ?_
      obtain ⟨h1, h2⟩ := mem_senders.1 hq
      have hqo : q ≠ o := by
        rintro rfl
        have := s.isLang
        rw [h2] at this
        simp [Kind.lang] at this
      exact congrFun (congrArg (lagged W q d) (funext fun t => s.inSum h (s.ready.below q h1) hqo 0 t)) t
    rw [this]
  | _ => simp only [operand, e1, e2, e3, e4]

/-- the signals of the whole graph -/
theorem Setup.signals (s : Setup T g n M o g' xs I x j ρ) (W : World α μ) {log : Nat → List (Sent μ)}
    (hlog : ∀ t, ∀ e ∈ log t, e.src < n)
    (F : ∀ v, Obeys W g log v o → ∃ v', Vals M n o x j v v' ∧ ∀ i, i < xs.length → Obeys W g' (rename ρ log) v' (n + i))
    (B : ∀ v', (∀ i, i < xs.length → Obeys W g' (rename ρ log) v' (n + i)) → ∃ v, Vals M n o x j v v' ∧ Obeys W g log v o) :
    (∀ v, Solves W g log v → ∃ v', Solves W g' (rename ρ log) v' ∧ Agree g g' ρ log v v') ∧
    ∀ v', Solves W g' (rename ρ log) v' → ∃ v, Solves W g log v ∧ Agree g g' ρ log v v' := by
  have hids := s.mem_ids
  have A : ∀ v v', Vals M n o x j v v' → Agree g g' ρ log v v' := by
    intro v v' h p hp hl
    have hpo : p ≠ o := by rintro rfl; rw [s.isLang] at hl; simp at hl
    have hpn := s.ready.below p hp
    exact ⟨h.old p hpn hpo, fun i t => ⟨s.inSum h hpn hpo i t, s.received hlog hpn hpo i t⟩⟩
  constructor
  · intro v hv
    obtain ⟨v', h1, h2⟩ := F v (hv o s.mem)
    refine ⟨v', fun p hp => ?_, A v v' h1⟩
    rcases (hids p).1 hp with ⟨a, b⟩ | ⟨i, a, rfl⟩
    · exact (s.obeys W hlog h1 a b).2 (hv p a)
    · exact h2 i a
  · intro v' hv
    obtain ⟨v, h1, h2⟩ := B v' (fun i hi => hv _ ((hids _).2 (.inr ⟨i, hi, rfl⟩)))
    refine ⟨v, fun p hp => ?_, A v v' h1⟩
    by_cases hpo : p = o
    · rw [hpo]; exact h2
    · exact (s.obeys W hlog h1 hp hpo).1 (hv p ((hids p).2 (.inl ⟨hp, hpo⟩)))

/-- the connections after the step -/
def after (M : Multiset Conn) (o : Nat) (I : Multiset Conn) (x j : Nat) : Multiset Conn :=
  rest M o + (I + (fromObj M o).map (Conn.startAt x j))

theorem mem_after {M I : Multiset Conn} {o x j : Nat} {c : Conn} : c ∈ after M o I x j ↔
    (c ∈ M ∧ c.src ≠ o ∧ c.dst ≠ o) ∨ c ∈ I ∨ ∃ e ∈ M, e.src = o ∧ c = Conn.startAt x j e := by
  simp only [after, rest, fromObj, Multiset.mem_add, Multiset.mem_filter, Multiset.mem_map]
  constructor
  · rintro (h | h | ⟨e, ⟨h1, h2⟩, rfl⟩)
    · exact .inl h
    · exact .inr (.inl h)
    · exact .inr (.inr ⟨e, h1, h2, rfl⟩)
  · rintro (h | h | ⟨e, h1, h2, rfl⟩)
    · exact .inl h
    · exact .inr (.inl h)
    · exact .inr (.inr ⟨e, ⟨h1, h2⟩, rfl⟩)

/-- what else is known about a step -/
structure More (T : Option Typing) (g : Graph α) (n : Nat) (M : Multiset Conn) (o : Nat) (g' : Graph α) (xs : List (Kind α))
    (I : Multiset Conn) (x j : Nat) (ρ : Nat → Nat) (δ : Conn → Option Conn) : Prop where
  ends : ∀ e ∈ I, e.src ∈ g'.ids ∧ e.dst ∈ g'.ids ∧ e.src ≠ e.dst ∧ e.ty ≠ .i
  outs : ∀ e ∈ M, e.src = o → x ∈ g'.ids ∧ x ≠ e.dst
  rank : ∃ rk : Nat → Int, ∀ c ∈ after M o I x j, (c.ty = .f → rk c.src < rk c.dst) ∧ (T.isSome → rk c.src ≤ rk c.dst) ∧
    ∀ τ, T = some τ → τ.loopless → rk c.src < rk c.dst
  typed : ∀ τ, T = some τ → (∀ y ∈ xs, y.made) ∧ ∀ c ∈ after M o I x j,
    (g'.kind c.src).src τ c.src c.outlet c.ty ∧ (g'.kind c.dst).dst τ c.dst c.inlet c.ty
  kinds : ∀ (i : Nat) (y : Kind α), xs[i]? = some y → y.lang = false ∧ ∀ z, y = .varRead z → z ∈ g'.ids ∧ ∃ k, g'.kind z = .varS k
  src : ∀ c' ∈ after M o I x j, c'.src < n → ∃ c ∈ M, c.src = c'.src ∧ c.outlet = c'.outlet ∧ c.ty = c'.ty
  same : ∀ p, p ≠ o → ρ p = p
  bound : ρ o < n + xs.length
  dead : ∀ c ∈ M, c.dst = o → (∀ c' ∈ after M o I x j, c'.from c.src c.outlet → (g'.kind c'.dst).lang ∧ Dead g c'.dst) → Dead g o
  quiet : Quiet g o → (ρ o ∉ g'.ids ∧ Dead g o) ∨ (ρ o ∈ g'.ids ∧ Stands (g.kind o) (g'.kind (ρ o)))
  order : ∀ p < n, ∀ j, ctl (g'.outs (ρ p) j) = (ctl (g.outs p j)).filterMap δ
  moved : ∀ c ∈ M, c.ty = .c → (δ c = none → Dead g c.dst) ∧
    ∀ c', δ c = some c' → (c'.dst = c.dst ∨ (g'.kind c'.dst).lang = false) ∧
      ((g.kind c.dst).lang = false ∨ Quiet g c.dst → c'.dst = ρ c.dst ∧ c'.inlet = c.inlet)

theorem fmt_sub {l l' : List Conn} (h : ∀ c' ∈ l', ∃ c ∈ l, c.ty = c'.ty) (hm : fmt l = '_' ∨ fmt l = 'c' ∨ fmt l = 'f') :
    fmt l' = '_' ∨ fmt l' = fmt l := by
  have key : ∀ x : Ty, l.all (·.ty = x) = true → l'.all (·.ty = x) = true := by
    intro x hx
    rw [List.all_eq_true] at hx ⊢
    intro c' hc'
    obtain ⟨c, hc, e⟩ := h c' hc'
    rw [← e]; exact hx c hc
  by_cases h0 : l' = []
  · left; simp [fmt, h0]
  right
  obtain ⟨c', hc'⟩ := List.exists_mem_of_ne_nil _ h0
  obtain ⟨c, hc, e⟩ := h c' hc'
  have hl0 : l ≠ [] := List.ne_nil_of_mem hc
  unfold fmt at hm ⊢
  simp only [if_neg h0, if_neg hl0] at hm ⊢
  by_cases hcc : l.all (·.ty = .c) = true
  · simp only [hcc, key .c hcc, if_true]
  · by_cases hf : l.all (·.ty = .f) = true
    · have : ¬ (l'.all (·.ty = .c) = true) := by
        intro h2
        rw [List.all_eq_true] at h2 hf
        have a := h2 c' hc'
        have b := hf c hc
        simp only [decide_eq_true_eq] at a b
        rw [e, a] at b
        exact absurd b (by decide)
      simp only [hcc, hf, key .f hf, this, if_true, if_false]
    · exfalso
      simp only [hcc, hf] at hm
      by_cases hi : l.all (·.ty = .i) = true
      · simp [hi] at hm
      · simp [hi] at hm

theorem Setup.ready' (s : Setup T g n M o g' xs I x j ρ) {δ : Conn → Option Conn} (m : More T g n M o g' xs I x j ρ δ) :
    ReadyT T g' (n + xs.length) (after M o I x j) := by
  have hids := s.mem_ids
  have hw : Wired g' (after M o I x j) := s.res.wired
  have hlang : ∀ p ∈ g'.ids, (g'.kind p).lang → p ∈ g.ids ∧ p ≠ o ∧ g'.kind p = g.kind p := by
    intro p hp hl
    rcases (hids p).1 hp with ⟨a, b⟩ | ⟨i, hi, rfl⟩
    · exact ⟨a, b, s.res.kindOld p (s.ready.below p a)⟩
    · obtain ⟨y, hy⟩ : ∃ y, xs[i]? = some y := ⟨xs[i], List.getElem?_eq_getElem hi⟩
      rw [s.res.kindNew i y hy, (m.kinds i y hy).1] at hl
      simp at hl
  refine ⟨hw, ?_, ?_, ?_, ?_, ?_, m.rank, ?_, ?_, ?_, fun τ hτ => ⟨(m.typed τ hτ).2, fun p hp => ?_, fun p hp op hk h0 c hc hcp => ?_, fun p hp q hq y kp kq => ?_⟩⟩
  · rw [s.res.ids]
    refine List.Nodup.erase _ (List.nodup_append.2 ⟨s.ready.nodup, List.nodup_range', ?_⟩)
    intro a ha b hb
    have := s.ready.below a ha
    rw [List.mem_range'_1] at hb
    omega
  · intro p hp
    rcases (hids p).1 hp with ⟨a, -⟩ | ⟨i, a, rfl⟩
    · have := s.ready.below p a; omega
    · omega
  · intro c hc
    rcases mem_after.1 hc with ⟨h1, h2, h3⟩ | h | ⟨e, h1, h2, rfl⟩
    · have := s.ready.ends c h1
      exact ⟨(hids _).2 (.inl ⟨this.1, h2⟩), (hids _).2 (.inl ⟨this.2, h3⟩)⟩
    · exact ⟨(m.ends c h).1, (m.ends c h).2.1⟩
    · exact ⟨(m.outs e h1 h2).1, (hids _).2 (.inl ⟨(s.ready.ends e h1).2, fun h => s.ready.loop e h1 (h2.trans h.symm)⟩)⟩
  · intro c hc
    rcases mem_after.1 hc with ⟨h1, h2, h3⟩ | h | ⟨e, h1, h2, rfl⟩
    · exact s.ready.loop c h1
    · exact (m.ends c h).2.2.1
    · exact (m.outs e h1 h2).2
  · intro c hc
    rcases mem_after.1 hc with ⟨h1, h2, h3⟩ | h | ⟨e, h1, h2, rfl⟩
    · exact s.ready.floats c h1
    · exact (m.ends c h).2.2.2
    · exact s.ready.floats e h1
  · intro p hp y hy
    rcases (hids p).1 hp with ⟨a, b⟩ | ⟨i, hi, rfl⟩
    · rw [s.res.kindOld p (s.ready.below p a)] at hy
      obtain ⟨h1, h2⟩ := s.ready.reads p a y hy
      have hyo : y ≠ o := by
        rintro rfl
        have := s.isLang
        rcases h2 with ⟨k, h2⟩ | ⟨h2, -⟩ <;> (rw [h2] at this; simp [Kind.lang] at this)
      refine ⟨(hids y).2 (.inl ⟨h1, hyo⟩), ?_⟩
      rw [s.res.kindOld y (s.ready.below y h1)]
      refine h2.imp id ?_
      rintro ⟨e, w, hw, hk⟩
      have hwo : w ≠ o := by
        rintro rfl
        have := s.isLang
        rw [hk] at this
        simp [Kind.lang] at this
      exact ⟨e, w, (hids w).2 (.inl ⟨hw, hwo⟩), by rw [s.res.kindOld w (s.ready.below w hw)]; exact hk⟩
    · obtain ⟨z, hz⟩ : ∃ y, xs[i]? = some y := ⟨xs[i], List.getElem?_eq_getElem hi⟩
      rw [s.res.kindNew i z hz] at hy
      exact ⟨((m.kinds i z hz).2 y hy).1, .inl ((m.kinds i z hz).2 y hy).2⟩
  · intro p hp hl
    obtain ⟨a, b, e⟩ := hlang p hp hl
    rw [e] at hl ⊢
    have hL := s.ready.lets p a hl
    have hpn := s.ready.below p a
    constructor
    · intro c hc hd
      rcases mem_after.1 hc with ⟨h1, h2, h3⟩ | h | ⟨e, h1, h2, rfl⟩
      · exact hL.inlet c h1 hd
      · have := s.into c h; omega
      · exact hL.inlet e h1 hd
    · intro c hc hd
      obtain ⟨c0, h1, h2, h3, h4⟩ := m.src c hc (by omega)
      rw [← h3]
      exact hL.outlet c0 h1 (h2.trans hd)
  · intro p hp
    by_cases hl : (g'.kind p).lang
    · obtain ⟨a, b, e⟩ := hlang p hp hl
      have hpn := s.ready.below p a
      have hF := s.ready.fits p a
      have hsub : ∀ c' ∈ g'.outs p 0, ∃ c ∈ g.outs p 0, c.ty = c'.ty := by
        intro c' hc'
        obtain ⟨h1, h2, h3⟩ := hw.mem_outs.1 hc'
        obtain ⟨c, q1, q2, q3, q4⟩ := m.src c' h1 (by omega)
        exact ⟨c, s.ready.wired.mem_outs.2 ⟨q1, q2.trans h2, q3.trans h3⟩, q4⟩
      unfold Fits at hF ⊢
      rw [e]
      cases hk : g.kind p with
      | binop op k =>
        rw [hk] at hF
        simp only [(s.old hpn b _).fmt] at hF ⊢
        rcases hF with h | h
        · rcases fmt_sub hsub (.inl h) with h' | h'
          · exact .inl h'
          · exact .inl (h'.trans h)
        · have : fmt (g.outs p 0) = 'c' ∨ fmt (g.outs p 0) = 'f' := by
            rcases h with h | h
            · exact .inr h.1
            · exact .inl h.1
          rcases fmt_sub hsub (.inr this) with h' | h'
          · exact .inl h'
          · rw [h']; exact .inr h
      | unop op =>
        rw [hk] at hF
        simp only [(s.old hpn b _).fmt] at hF ⊢
        rcases hF with h | ⟨h1, h2, h3⟩
        · exact .inl h
        · refine .inr ⟨h1, h2, ?_⟩
          have : fmt (g.outs p 0) = '_' ∨ fmt (g.outs p 0) = 'c' ∨ fmt (g.outs p 0) = 'f' := by
            rcases h3 with h | h
            · exact .inl h
            · exact .inr (.inl h)
          rcases fmt_sub hsub this with h' | h'
          · exact .inl h'
          · rw [h']; exact h3
      | var k =>
        rw [hk] at hF
        simp only [(s.old hpn b _).fmt] at hF ⊢
        refine ⟨hF.1, ?_⟩
        rcases fmt_sub hsub hF.2 with h' | h'
        · exact .inl h'
        · rw [h']; exact hF.2
      | _ => trivial
    · unfold Fits
      cases hk : g'.kind p with
      | binop op k => rw [hk] at hl; simp [Kind.lang] at hl
      | unop op => rw [hk] at hl; simp [Kind.lang] at hl
      | var op => rw [hk] at hl; simp [Kind.lang] at hl
      | _ => trivial
  · rcases (hids p).1 hp with ⟨a, b⟩ | ⟨i, hi, rfl⟩
    · rw [s.res.kindOld p (s.ready.below p a)]
      exact (s.ready.typed τ hτ).2.1 p a
    · obtain ⟨y, hy⟩ : ∃ y, xs[i]? = some y := ⟨xs[i], List.getElem?_eq_getElem hi⟩
      rw [s.res.kindNew i y hy]
      have hm := (m.typed τ hτ).1 y (List.mem_of_getElem? hy)
      intro hs
      cases y <;> simp [Kind.made, Kind.foreign] at hm hs
  · obtain ⟨a, b, e⟩ := hlang p hp (by rw [hk]; rfl)
    have hpn := s.ready.below p a
    rw [e] at hk
    rw [(s.old hpn b _).fmt] at h0
    obtain ⟨c0, h1, h2, -, h4⟩ := m.src c hc (by omega)
    rw [← h4]
    exact (s.ready.typed τ hτ).2.2.1 p a op hk h0 c0 h1 (h2.trans hcp)
  · have old : ∀ p ∈ g'.ids, g'.kind p = .varWrite y → p ∈ g.ids ∧ g.kind p = .varWrite y := by
      intro p hp kp
      rcases (hids p).1 hp with ⟨a, b⟩ | ⟨i, hi, rfl⟩
      · rw [s.res.kindOld p (s.ready.below p a)] at kp
        exact ⟨a, kp⟩
      · obtain ⟨z, hz⟩ : ∃ z, xs[i]? = some z := ⟨xs[i], List.getElem?_eq_getElem hi⟩
        rw [s.res.kindNew i z hz] at kp
        have hm := (m.typed τ hτ).1 z (List.mem_of_getElem? hz)
        rw [kp] at hm
        simp [Kind.made] at hm
    exact (s.ready.typed τ hτ).2.2.2 p (old p hp kp).1 q (old q hq kq).1 y (old p hp kp).2 (old q hq kq).2

theorem Dead.isLang {g : Graph α} {d : Nat} (h : Dead g d) : (g.kind d).lang := by
  cases h with
  | mk _ op k hk _ => rw [hk]; rfl

theorem Setup.sim (s : Setup T g n M o g' xs I x j ρ) (W : World α μ) {δ : Conn → Option Conn} (m : More T g n M o g' xs I x j ρ δ)
    (F : ∀ log : Nat → List (Sent μ), (∀ t, ∀ e ∈ log t, e.src < n) → ∀ v, Obeys W g log v o →
      ∃ v', Vals M n o x j v v' ∧ ∀ i, i < xs.length → Obeys W g' (rename ρ log) v' (n + i))
    (B : ∀ log : Nat → List (Sent μ), (∀ t, ∀ e ∈ log t, e.src < n) → ∀ v', (∀ i, i < xs.length → Obeys W g' (rename ρ log) v' (n + i)) →
      ∃ v, Vals M n o x j v v' ∧ Obeys W g log v o) : Sim W g g' n (n + xs.length) ρ δ := by
  have hids := s.mem_ids
  have hw : Wired g' (after M o I x j) := s.res.wired
  have hon := s.ready.below o s.mem
  constructor
  · omega
  · intro p hp
    by_cases h : p = o
    · rw [h]; exact m.bound
    · rw [m.same p h]; omega
  · intro p hp h1 h2
    have hpo : p ≠ o := by rintro rfl; exact h1 s.mem
    rw [m.same p hpo] at h2
    rcases (hids p).1 h2 with ⟨a, -⟩ | ⟨i, -, hi⟩
    · exact h1 a
    · omega
  · intro p hp hl
    have hpo : p ≠ o := by rintro rfl; rw [s.isLang] at hl; simp at hl
    exact ⟨(hids p).2 (.inl ⟨hp, hpo⟩), s.res.kindOld p (s.ready.below p hp), m.same p hpo⟩
  · intro d hd h
    induction h with
    | mk d op k hk hall ih =>
      have hold : d ∈ g.ids ∧ d ≠ o := by
        rcases (hids d).1 hd with h | ⟨i, hi, rfl⟩
        · exact h
        · obtain ⟨z, hz⟩ : ∃ y, xs[i]? = some y := ⟨xs[i], List.getElem?_eq_getElem hi⟩
          have := (m.kinds i z hz).1
          rw [← s.res.kindNew i z hz, hk] at this
          simp [Kind.lang] at this
      have hk' := s.res.kindOld d (s.ready.below d hold.1)
      rw [hk] at hk'
      refine ⟨hold.1, .mk d op k hk'.symm fun c hc => ?_⟩
      obtain ⟨h1, h2, h3⟩ := s.ready.wired.mem_outs.1 hc
      have hend : ∀ c' ∈ g'.outs d 0, c'.dst ∈ g'.ids := fun c' hc' => ((s.ready' m).ends c' (hw.mem_outs.1 hc').1).2
      by_cases hco : c.dst = o
      · rw [hco]
        refine m.dead c h1 hco fun c' hc' hf => ?_
        have : c' ∈ g'.outs d 0 := hw.mem_outs.2 ⟨hc', hf.1.trans h2, hf.2.trans h3⟩
        exact ⟨(hall c' this).isLang, (ih c' this (hend c' this)).2⟩
      · have : c ∈ g'.outs d 0 := hw.mem_outs.2 ⟨mem_after.2 (.inl ⟨h1, by rw [h2]; exact hold.2, hco⟩), h2, h3⟩
        exact (ih c this (hend c this)).2
  · intro d hd hl hq
    by_cases hdo : d = o
    · subst hdo
      rcases m.quiet hq with h | ⟨h1, h2⟩
      · exact .inl h
      · exact .inr ⟨h1, .inr h2⟩
    · have hdn := s.ready.below d hd
      rw [m.same d hdo]
      refine .inr ⟨(hids d).2 (.inl ⟨hd, hdo⟩), .inl ⟨s.res.kindOld d hdn, rfl, fun i => ?_, fun i => ?_⟩⟩
      · rw [(s.old hdn hdo i).hasSignal]; exact hq.1 i
      · have := hq.2 i
        unfold hasSignal at this ⊢
        rw [List.any_eq_false] at this ⊢
        intro c' hc'
        obtain ⟨h1, h2, h3⟩ := hw.mem_outs.1 hc'
        obtain ⟨c, q1, q2, q3, q4⟩ := m.src c' h1 (by omega)
        rw [← q4]
        exact this c (s.ready.wired.mem_outs.2 ⟨q1, q2.trans h2, q3.trans h3⟩)
  · exact m.order
  · intro p hp i c hc
    have h1 := List.mem_filter.1 hc
    exact m.moved c (s.ready.wired.mem_outs.1 h1.1).1 (by simpa using h1.2)
  · intro log hlog
    exact s.signals W hlog (F log hlog) (B log hlog)

end

end Verif.Reduce
