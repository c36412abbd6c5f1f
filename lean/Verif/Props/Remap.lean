import Verif.RemapShape
import Verif.Props.ReduceObj
/-!
# C59: what is sent to a `send~` or `throw~` arrives at every `receive~` or `catch~` of the same name

Specification.  The equation of `receive` in `Props/Reduce.lean`: its signal is the sum of what all the sends of its name get,
each of them one block late when the receiver runs before the sender.
-/
namespace Verif.Reduce

variable {α μ : Type}

/-! ### specification -/

/-- a name under which a signal is sent -/
def Live.name (g : Graph α) (m : String) : Prop := ∃ s ∈ g.ids, g.kind s = .send m ∧ hasSignal (g.ins s 0)

/-- a send of a signal, or a receive of a name under which a signal is sent -/
def Postal (g : Graph α) (p : Nat) : Prop := p ∈ g.ids ∧
  ((∃ m, g.kind p = .send m ∧ hasSignal (g.ins p 0)) ∨ ∃ m, g.kind p = .receive m ∧ Live.name g m)

/-- sends and receives are connected like sends and receives: a send has no outlet, a receive no inlet; a name stands for
signals or for messages, not for both -/
structure Posted (g : Graph α) (M : Multiset Conn) : Prop where
  send : ∀ s ∈ g.ids, ∀ m, g.kind s = .send m → ∀ c ∈ M, c.src ≠ s ∧ (c.dst = s → c.inlet = 0)
  receive : ∀ r ∈ g.ids, ∀ m, g.kind r = .receive m → ∀ c ∈ M, c.dst ≠ r ∧ (c.src = r → c.outlet = 0)
  sendTy : ∀ m, Live.name g m → ∀ s ∈ g.ids, g.kind s = .send m → ∀ c ∈ M, c.dst = s → c.ty = .f
  receiveTy : ∀ m, Live.name g m → ∀ r ∈ g.ids, g.kind r = .receive m → ∀ c ∈ M, c.src = r → c.ty = .f
  write : ∀ w ∈ g.ids, ∀ y, g.kind w = .varWrite y → y ∈ g.ids ∧ g.kind y = .varSig

/-- the world in which the receive `r` runs before the send `s` when `rd s r` runs before `wr s` -/
def World.via (W : World α μ) (wr : Nat → Nat) (rd : Nat → Nat → Nat) : World α μ :=
  { W with late := fun s r => W.late (wr s) (rd s r) }

/-- the objects that are still there have the same signals at their outlets, and the same signals and messages at their inlets -/
def Alike [AddCommMonoid α] (g g' : Graph α) (log : Nat → List (Sent μ)) (v v' : Nat → Nat → Nat → α) : Prop :=
  ∀ p ∈ g.ids, p ∈ g'.ids → (∀ j t, v' p j t = v p j t) ∧
    ∀ i t, inSum v' (g'.ins p i) t = inSum v (g.ins p i) t ∧ received (log t) (g'.ins p i) = received (log t) (g.ins p i)

/-- what `g'` has to do with `g` when the sends and receives `D` have been replaced: the send `s` by the write `wr s` of a variable
of its own, the receive `r` by the sum of the reads `rd s r` of these variables -/
structure Mail [Field α] (W : World α μ) (g g' : Graph α) (n n' : Nat) (D : Nat → Prop) (wr : Nat → Nat) (rd : Nat → Nat → Nat) :
    Prop where
  le : n ≤ n'
  ids : ∀ p < n, p ∈ g'.ids ↔ p ∈ g.ids ∧ ¬ D p
  kind : ∀ p < n, g'.kind p = g.kind p
  order : ∀ p ∈ g.ids, ¬ D p → ∀ j, ctl (g'.outs p j) = ctl (g.outs p j)
  sig : ∀ p ∈ g.ids, ¬ D p → ∀ i, hasSignal (g'.ins p i) = hasSignal (g.ins p i)
  wrOld : ∀ p, ¬ D p → wr p = p
  wrNew : ∀ s ∈ g.ids, D s → (∀ m, g.kind s ≠ .receive m) → n ≤ wr s
  wrMem : ∀ s ∈ g.ids, (∀ m, g.kind s ≠ .receive m) → wr s ∈ g'.ids
  wrInj : ∀ s ∈ g.ids, ∀ q ∈ g.ids, (∀ m, g.kind s ≠ .receive m) → (∀ m, g.kind q ≠ .receive m) → wr s = wr q → s = q
  rdOld : ∀ p q, ¬ (D p ∧ D q) → rd p q = q
  fresh : ∀ w ∈ g'.ids, n ≤ w → (∀ m, g'.kind w ≠ .send m) ∧ (∀ m, g'.kind w ≠ .receive m) ∧ ∀ y, g'.kind w = .varWrite y → n ≤ y
  post : ∀ s r m, D s → D r → g.kind s = .send m → g.kind r = .receive m → ∃ y ∈ g'.ids, g'.kind y = .varSig ∧
    wr s ∈ g'.ids ∧ g'.kind (wr s) = .varWrite y ∧ (∀ w ∈ g'.ids, g'.kind w = .varWrite y → w = wr s) ∧
    rd s r ∈ g'.ids ∧ g'.kind (rd s r) = .varRead y
  signals : ∀ log : Nat → List (Sent μ), (∀ t, ∀ e ∈ log t, e.src < n) →
    (∀ v, Solves (W.via wr rd) g log v → ∃ v', Solves W g' log v' ∧ Alike g g' log v v') ∧
    ∀ v', Solves W g' log v' → ∃ v, Solves (W.via wr rd) g log v ∧ Alike g g' log v v'

/-! ### connections -/

section
variable [DecidableEq α] [Field α] {g g' : Graph α} {n n' : Nat} {M : Multiset Conn} {ss rs : List Nat} {wr var so : Nat → Nat}
  {rd : Nat → Nat → Nat} {E : List Conn}

/-- the connections between the new objects -/
theorem Shape.edge (S : Shape g n M ss rs g' n' wr var so rd E) {e : Conn} (he : e ∈ E) :
    ∃ s ∈ ss, ∃ r ∈ rs, e.src = rd s r ∧ e.dst = so r ∧ e.outlet = 0 ∧ e.ty = .f := by
  rcases S.sum with ⟨s, -, h, -⟩ | ⟨h, -⟩
  · rw [h] at he; simp at he
  · rw [h] at he
    obtain ⟨r, hr, he⟩ := List.mem_flatMap.1 he
    obtain ⟨s, hs, rfl⟩ := List.mem_map.1 he
    exact ⟨s, hs, r, hr, rfl, rfl, rfl, rfl⟩

theorem Shape.edgeInlet (S : Shape g n M ss rs g' n' wr var so rd E) {e : Conn} (he : e ∈ E) : e.inlet < 2 := by
  rcases S.sum with ⟨s, -, h, -⟩ | ⟨h, -⟩
  · rw [h] at he; simp at he
  · rw [h] at he
    obtain ⟨r, hr, he⟩ := List.mem_flatMap.1 he
    obtain ⟨s, hs, rfl⟩ := List.mem_map.1 he
    show (if List.idxOf s ss = 0 then 0 else 1) < 2
    split <;> decide

theorem Shape.soKind (S : Shape g n M ss rs g' n' wr var so rd E) {r : Nat} (hr : r ∈ rs) :
    (∀ m, g'.kind (so r) ≠ .send m) ∧ (∀ m, g'.kind (so r) ≠ .receive m) ∧ (∀ y, g'.kind (so r) ≠ .varWrite y) ∧ g'.kind (so r) ≠ .varSig ∧
      (g'.kind (so r)).lang = false := by
  rcases S.sum with ⟨s, h, -, h3⟩ | ⟨-, h⟩
  · rw [h3 r hr, (S.rdNew s (by simp [h]) r hr).2.2]; simp [Kind.lang]
  · rw [h r hr]; simp [Kind.lang]

theorem Shape.mem_ids (S : Shape g n M ss rs g' n' wr var so rd E) (h : Place g n M ss rs) (p : Nat) :
    p ∈ g'.ids ↔ (p ∈ g.ids ∧ p ∉ ss ∧ p ∉ rs) ∨ (n ≤ p ∧ p < n') := by
  have := S.le
  rw [S.ids, List.mem_append, List.mem_filter, List.mem_range'_1]
  simp only [decide_eq_true_eq]
  refine or_congr Iff.rfl ?_
  omega

/-- the inlets of the old objects, and of the writes -/
theorem Shape.into (S : Shape g n M ss rs g' n' wr var so rd E) (h : Place g n M ss rs) {d : Nat} (hd : d ∈ g.ids) (i : Nat) :
    Same (ren wr so) (g.ins d i) (g'.ins (wr d) i) := by
  refine ⟨?_, fun c _ => rfl⟩
  rw [S.wired.ins, h.wired.ins, Multiset.filter_add]
  have hwd : wr d = d ∨ (n ≤ wr d ∧ d ∈ ss) := by
    by_cases hs : d ∈ ss
    · exact .inr ⟨(S.wrNew d hs).1, hs⟩
    · exact .inl (S.wrOld d hs)
  have h1 : (E : Multiset Conn).filter (·.into (wr d) i) = 0 := Multiset.filter_eq_nil.2 fun c hc hi => by
    obtain ⟨s, hs, r, hr, -, e, -⟩ := S.edge hc
    have hi := hi.1
    rw [e] at hi
    rcases hwd with hw | ⟨-, hw⟩
    · have := (S.soNew r hr).1
      have := h.below d hd
      omega
    · exact (S.soKind hr).2.2.1 _ (hi ▸ (S.wrNew d hw).2.2)
  rw [h1, Multiset.add_zero, Multiset.filter_map]
  congr 1
  refine Multiset.filter_congr fun c hc => ?_
  show wr c.dst = wr d ∧ c.inlet = i ↔ c.dst = d ∧ c.inlet = i
  refine and_congr ⟨fun e => ?_, fun e => by rw [e]⟩ Iff.rfl
  have hcn := h.dst c hc
  have hdn := h.below d hd
  by_cases h1 : c.dst ∈ ss <;> by_cases h2 : d ∈ ss
  · exact S.wrInj _ h1 _ h2 e
  · rw [S.wrOld d h2] at e; have := (S.wrNew _ h1).1; omega
  · rw [S.wrOld _ h1] at e; have := (S.wrNew _ h2).1; omega
  · rw [S.wrOld _ h1, S.wrOld _ h2] at e; exact e

/-- the outlets of the old objects -/
theorem Shape.from (S : Shape g n M ss rs g' n' wr var so rd E) (h : Place g n M ss rs) {d : Nat} (hd : d ∈ g.ids) (hdr : d ∉ rs)
    (j : Nat) : Same (ren wr so) (g.outs d j) (g'.outs d j) := by
  refine ⟨?_, fun c _ => rfl⟩
  have hdn := h.below d hd
  rw [S.wired.outs, h.wired.outs, Multiset.filter_add]
  have h1 : (E : Multiset Conn).filter (·.from d j) = 0 := Multiset.filter_eq_nil.2 fun c hc hi => by
    obtain ⟨s, hs, r, hr, e, -⟩ := S.edge hc
    have hi := hi.1
    rw [e] at hi
    have := (S.rdNew s hs r hr).1
    omega
  rw [h1, Multiset.add_zero, Multiset.filter_map]
  congr 1
  refine Multiset.filter_congr fun c hc => ?_
  show so c.src = d ∧ c.outlet = j ↔ c.src = d ∧ c.outlet = j
  refine and_congr ⟨fun e => ?_, fun e => by rw [e, S.soOld _ hdr]⟩ Iff.rfl
  by_cases h1 : c.src ∈ rs
  · have := (S.soNew _ h1).1; omega
  · rw [S.soOld _ h1] at e; exact e

theorem sum_pair {l : List Conn} (h : ∀ e ∈ l, e.inlet = 0 ∨ e.inlet = 1) (f : Conn → α) :
    ((l.filter (·.inlet = 0)).map f).sum + ((l.filter (·.inlet = 1)).map f).sum = (l.map f).sum := by
  induction l with
  | nil => simp
  | cons e l ih =>
    have i := ih fun d hd => h d (by simp [hd])
    rcases h e (by simp) with h0 | h0
    · simp only [List.filter_cons, h0, decide_true, if_true, List.map_cons, List.sum_cons, ← i,
        show decide ((0 : Nat) = 1) = false from rfl, Bool.false_eq_true, if_false]
      ring
    · simp only [List.filter_cons, h0, decide_true, if_true, List.map_cons, List.sum_cons, ← i,
        show decide ((1 : Nat) = 0) = false from rfl, Bool.false_eq_true, if_false]
      ring

theorem filter_sums {ss : List Nat} {so : Nat → Nat} {rd : Nat → Nat → Nat} : ∀ {rs : List Nat}, rs.Nodup →
    (∀ r ∈ rs, ∀ q ∈ rs, so r = so q → r = q) → ∀ {r : Nat}, r ∈ rs → (sums ss rs so rd).filter (·.dst = so r) =
      ss.map fun s => (⟨rd s r, 0, so r, if ss.idxOf s = 0 then 0 else 1, .f⟩ : Conn) := by
  intro rs
  induction rs with
  | nil => intro _ _ r hr; simp at hr
  | cons q rs ih =>
    intro hnd hinj r hr
    rw [List.nodup_cons] at hnd
    have hs : sums ss (q :: rs) so rd = (ss.map fun s => (⟨rd s q, 0, so q, if ss.idxOf s = 0 then 0 else 1, .f⟩ : Conn)) ++ sums ss rs so rd :=
      rfl
    rw [hs, List.filter_append]
    by_cases hq : q = r
    · subst hq
      have h1 : (sums ss rs so rd).filter (·.dst = so q) = [] := by
        rw [List.filter_eq_nil_iff]
        intro e he
        obtain ⟨r', hr', he⟩ := List.mem_flatMap.1 he
        obtain ⟨s, -, rfl⟩ := List.mem_map.1 he
        simp only [decide_eq_true_eq]
        intro e
        have := hinj r' (by simp [hr']) q (by simp) e
        exact hnd.1 (this ▸ hr')
      rw [h1, List.append_nil, List.filter_eq_self]
      intro e he
      obtain ⟨s, -, rfl⟩ := List.mem_map.1 he
      simp
    · have hr' : r ∈ rs := by
        rcases List.mem_cons.1 hr with h | h
        · exact absurd h.symm hq
        · exact h
      have h1 : (ss.map fun s => (⟨rd s q, 0, so q, if ss.idxOf s = 0 then 0 else 1, .f⟩ : Conn)).filter (·.dst = so r) = [] := by
        rw [List.filter_eq_nil_iff]
        intro e he
        obtain ⟨s, -, rfl⟩ := List.mem_map.1 he
        simp only [decide_eq_true_eq]
        intro e
        exact hq (hinj q (by simp) r hr e)
      rw [h1, List.nil_append]
      exact ih hnd.2 (fun a ha b hb => hinj a (by simp [ha]) b (by simp [hb])) hr'

/-- what the sum gets -/
theorem Shape.total (S : Shape g n M ss rs g' n' wr var so rd E) (h : Place g n M ss rs) {r : Nat} (hr : r ∈ rs)
    (hE : E = sums ss rs so rd) (v : Nat → Nat → Nat → α) (t : Nat) :
    inSum v (g'.ins (so r) 0) t + inSum v (g'.ins (so r) 1) t = (ss.map fun s => v (rd s r) 0 t).sum := by
  have hins : ∀ i, (g'.ins (so r) i).Perm (((sums ss rs so rd).filter (·.dst = so r)).filter (·.inlet = i)) := by
    intro i
    rw [← Multiset.coe_eq_coe, S.wired.ins, Multiset.filter_add]
    have h1 : (M.map (ren wr so)).filter (·.into (so r) i) = 0 := Multiset.filter_eq_nil.2 fun c hc hi => by
      obtain ⟨d, hd, rfl⟩ := Multiset.mem_map.1 hc
      have hi : wr d.dst = so r := hi.1
      by_cases hs : d.dst ∈ ss
      · exact (S.soKind hr).2.2.1 _ (hi ▸ (S.wrNew _ hs).2.2)
      · rw [S.wrOld _ hs] at hi
        have := h.dst d hd
        have := (S.soNew r hr).1
        omega
    rw [h1, Multiset.zero_add, hE, Multiset.filter_coe, List.filter_filter]
    congr 1
    refine List.filter_congr fun c _ => ?_
    rw [Bool.eq_iff_iff]
    simp only [decide_eq_true_eq, Bool.and_eq_true]
    exact ⟨fun h => And.symm h, fun h => And.symm h⟩
  rw [filter_sums h.rsNodup S.soInj hr] at hins
  rw [inSum_perm (hins 0), inSum_perm (hins 1)]
  unfold inSum
  have hf : ∀ i, List.filter (fun x : Conn => decide (x.ty = Ty.f)) (List.filter (fun x => decide (x.inlet = i))
      (ss.map fun s => (⟨rd s r, 0, so r, if ss.idxOf s = 0 then 0 else 1, .f⟩ : Conn))) = List.filter (fun x => decide (x.inlet = i))
      (ss.map fun s => (⟨rd s r, 0, so r, if ss.idxOf s = 0 then 0 else 1, .f⟩ : Conn)) := by
    intro i
    rw [List.filter_eq_self]
    intro e he
    obtain ⟨s, -, rfl⟩ := List.mem_map.1 (List.mem_filter.1 he).1
    simp
  rw [hf, hf, sum_pair, List.map_map]
  · rfl
  · intro e he
    obtain ⟨s, -, rfl⟩ := List.mem_map.1 he
    simp only
    split <;> simp

end

end Verif.Reduce
