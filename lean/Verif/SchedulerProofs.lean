import Verif.Scheduler
import Verif.Props.MessageQueue
/-! Invariants of the scheduler model. -/
namespace Verif.Sched
open MQ (Item Q absInsert absRemove)

variable {σ : Type}

/-- delivery order: by time, then by order of scheduling -/
def lex (a b : Item) : Prop := a.ts < b.ts ∨ (a.ts = b.ts ∧ a.id < b.id)

theorem lex_trans {a b c : Item} (h1 : lex a b) (h2 : lex b c) : lex a c := by
  unfold lex at *; omega

/-- invariant of the system; `xs` are the pending messages in queue order -/
structure SI (s : Sys σ) (xs : List Item) : Prop where
  rep : ∃ as ps, MQ.Rep s.q as ps xs
  lex : xs.Pairwise lex
  ids : s.added.map (·.id) = List.range s.nid
  perm : s.added.Perm (s.log.map (·.item) ++ s.cancelled ++ xs)

theorem SI.sorted {s : Sys σ} {xs} (h : SI s xs) : xs.Pairwise (fun a b => a.ts ≤ b.ts) :=
  h.lex.imp (fun hab => by unfold Sched.lex at hab; omega)

theorem SI.id_lt {s : Sys σ} {xs} (h : SI s xs) : ∀ x ∈ xs, x.id < s.nid := by
  intro x hx
  have : x ∈ s.added := h.perm.mem_iff.mpr (by simp [hx])
  have : x.id ∈ s.added.map (·.id) := List.mem_map_of_mem this
  rw [h.ids] at this
  simpa using this

theorem SI.uniq {s : Sys σ} {xs} (h : SI s xs) : MQ.Uniq xs := by
  have h1 : (s.added.map (·.id)).Nodup := by rw [h.ids]; exact List.nodup_range
  have h2 := (h.perm.map (·.id)).nodup_iff.mp h1
  rw [List.map_append] at h2
  have h3 := (List.nodup_append.mp h2).2.1
  unfold MQ.Uniq
  rw [List.Nodup, List.pairwise_map] at h3
  exact h3

theorem insert_perm (x : Item) (xs : List Item) (hs : xs.Pairwise (fun a b => a.ts ≤ b.ts)) :
    (absInsert x xs).Perm (x :: xs) := by
  rw [MQ.absInsert_eq x xs hs]
  refine List.perm_middle.trans (List.Perm.cons x ?_)
  have := List.filter_append_perm (fun y : Item => decide (y.ts ≤ x.ts)) xs
  refine List.Perm.trans (List.Perm.append_left _ ?_) this
  rw [List.filter_congr (q := fun y => !decide (y.ts ≤ x.ts))]
  intro a _
  rw [Bool.eq_iff_iff]; simp

theorem sched_ok {s : Sys σ} {xs} (h : SI s xs) (ts inlet send : Nat) :
    ∃ s', sched s ts inlet send = .ok s' ∧ SI s' (absInsert ⟨s.nid, ts, inlet, send⟩ xs) ∧
      s'.clock = s.clock ∧ s'.inq = s.inq ∧ s'.hst = s.hst ∧ s'.log = s.log ∧
      s'.cancelled = s.cancelled ∧ s'.nid = s.nid + 1 ∧
      s'.added = s.added ++ [⟨s.nid, ts, inlet, send⟩] := by
  obtain ⟨as, ps, r⟩ := h.rep
  obtain ⟨q', as', ps', h1, h2⟩ := MQ.addByTimestamp_rep r ⟨s.nid, ts, inlet, send⟩
  refine ⟨{ s with q := q', nid := s.nid + 1, added := s.added ++ [⟨s.nid, ts, inlet, send⟩] },
    by simp only [sched, h1], ⟨⟨as', ps', h2⟩, ?_, ?_, ?_⟩, rfl, rfl, rfl, rfl, rfl, rfl, rfl⟩
  · rw [MQ.absInsert_eq _ xs h.sorted]
    rw [List.pairwise_append]
    refine ⟨h.lex.filter _, List.pairwise_cons.mpr ⟨?_, h.lex.filter _⟩, ?_⟩
    · intro a ha; simp at ha; exact .inl ha.2
    · intro a ha b hb
      simp at ha hb
      have := h.id_lt a ha.1
      unfold Sched.lex
      rcases hb with rfl | hb
      · simp only; omega
      · omega
  · simp [h.ids, List.range_succ]
  · have := insert_perm ⟨s.nid, ts, inlet, send⟩ xs h.sorted
    simp only
    refine List.Perm.trans (List.Perm.append_right _ h.perm) ?_
    rw [List.append_assoc]
    refine List.Perm.append_left _ ?_
    refine List.Perm.trans ?_ this.symm
    exact List.perm_append_singleton _ _

theorem cancel_ok {s : Sys σ} {xs} (h : SI s xs) (m : Nat) (send : Option Nat) :
    ∃ s', cancel s m send = .ok s' ∧ SI s' (absRemove m send xs).2 ∧
      s'.clock = s.clock ∧ s'.inq = s.inq ∧ s'.hst = s.hst ∧ s'.log = s.log ∧
      s'.nid = s.nid ∧ s'.added = s.added := by
  obtain ⟨as, ps, r⟩ := h.rep
  obtain ⟨q', as', ps', h1, h2⟩ := MQ.removeMessage_rep r m send
  have hr := MQ.absRemove_eq m send xs h.uniq
  refine ⟨{ s with q := q', cancelled := s.cancelled ++
      (if (absRemove m send xs).1 then ((MQ.toList s.q).getD []).filter (fun x => x.id = m) else []) },
    by simp only [cancel, h1], ⟨⟨as', ps', h2⟩, ?_, h.ids, ?_⟩, rfl, rfl, rfl, rfl, rfl, rfl⟩
  · rw [hr]; split
    · exact h.lex.filter _
    · exact h.lex
  · rw [hr, r.toList]
    by_cases hc : ∃ x ∈ xs, x.id = m ∧ (send = none ∨ send = some x.send)
    · simp only [if_pos hc, if_true, Option.getD_some]
      refine h.perm.trans ?_
      rw [List.append_assoc, List.append_assoc, List.append_assoc]
      refine List.Perm.append_left _ (List.Perm.append_left _ ?_)
      have := List.filter_append_perm (fun y : Item => decide (y.id = m)) xs
      refine this.symm.trans (List.Perm.append_left _ ?_)
      rw [List.filter_congr (q := fun x => decide (x.id ≠ m))]
      intro a _
      rw [Bool.eq_iff_iff]; simp
    · simp only [if_neg hc]
      simpa using h.perm

/-- the handlers never schedule into the past of the message they handle, and never cancel the message
being handled -/
def WellBehaved (H : Handler σ) : Prop :=
  ∀ st nid x, ∀ a ∈ (H st nid x).2, match a with
    | .sched ts _ _ => x.ts ≤ ts
    | .cancel m _ => m ≠ x.id

theorem absRemove_cons {m : Nat} {send} {x : Item} {t} (hm : x.id ≠ m) :
    absRemove m send (x :: t) = ((absRemove m send t).1, x :: (absRemove m send t).2) := by
  simp [absRemove, hm]

theorem absInsert_cons {x y : Item} {t : List Item} (hs : (x :: t).Pairwise (fun a b => a.ts ≤ b.ts))
    (h : x.ts ≤ y.ts) : absInsert y (x :: t) = x :: absInsert y t := by
  rw [MQ.absInsert_eq y _ hs, MQ.absInsert_eq y _ (List.pairwise_cons.mp hs).2]
  have : ¬ y.ts < x.ts := by omega
  simp [List.filter_cons, h, this]

theorem absRemove_sublist (m : Nat) (send) (t : List Item) : (absRemove m send t).2.Sublist t := by
  induction t with
  | nil => simp [absRemove]
  | cons y t ih =>
    unfold absRemove
    split
    · split
      · exact List.sublist_cons_self _ _
      · exact List.Sublist.refl _
    · exact ih.cons_cons _

/-- the actions of a handler that are not before `lo` and do not touch the message `x` at the head -/
def ActsOk (lo : Nat) (x : Item) (acts : List Act) : Prop :=
  ∀ a ∈ acts, match a with | .sched ts _ _ => lo ≤ ts | .cancel m _ => m ≠ x.id

theorem execActs_ok {acts : List Act} {lo : Nat} :
    ∀ {s : Sys σ} {x : Item} {t : List Item}, SI s (x :: t) → x.ts ≤ lo → ActsOk lo x acts →
    ∃ s' t', execActs s acts = .ok s' ∧ SI s' (x :: t') ∧
      s'.clock = s.clock ∧ s'.inq = s.inq ∧ s'.hst = s.hst ∧ s'.log = s.log ∧
      (∀ y ∈ t', y ∈ t ∨ lo ≤ y.ts) ∧
      t'.countP (fun y => decide (y.ts < lo)) ≤ t.countP (fun y => decide (y.ts < lo)) := by
  induction acts with
  | nil =>
    intro s x t h _ _
    exact ⟨s, t, rfl, h, rfl, rfl, rfl, rfl, fun y hy => .inl hy, Nat.le_refl _⟩
  | cons a acts ih =>
    intro s x t h hlo ha
    have ha' : ActsOk lo x acts := fun b hb => ha b (by simp [hb])
    have h0 := ha a (by simp)
    cases a with
    | sched ts inlet send =>
      obtain ⟨s1, e1, h1, f1, f2, f3, f4, -, -, -⟩ := sched_ok h ts inlet send
      simp only at h0
      rw [absInsert_cons h.sorted (by simp only; omega)] at h1
      obtain ⟨s2, t2, e2, h2, g1, g2, g3, g4, g5, g6⟩ := ih h1 hlo ha'
      have hp := insert_perm ⟨s.nid, ts, inlet, send⟩ t (List.pairwise_cons.mp h.sorted).2
      refine ⟨s2, t2, by simp only [execActs, e1]; exact e2, h2, by rw [g1, f1], by rw [g2, f2],
        by rw [g3, f3], by rw [g4, f4], ?_, ?_⟩
      · intro y hy
        rcases g5 y hy with h | h
        · rcases List.mem_cons.mp (hp.mem_iff.mp h) with rfl | h
          · exact .inr h0
          · exact .inl h
        · exact .inr h
      · refine Nat.le_trans g6 ?_
        rw [hp.countP_eq, List.countP_cons_of_neg (by simp only [decide_eq_true_eq]; omega)]
        omega
    | cancel m send =>
      obtain ⟨s1, e1, h1, f1, f2, f3, f4, -, -⟩ := cancel_ok h m send
      rw [absRemove_cons (Ne.symm h0)] at h1
      obtain ⟨s2, t2, e2, h2, g1, g2, g3, g4, g5, g6⟩ := ih h1 hlo ha'
      refine ⟨s2, t2, by simp only [execActs, e1]; exact e2, h2, by rw [g1, f1], by rw [g2, f2],
        by rw [g3, f3], by rw [g4, f4], ?_, ?_⟩
      · intro y hy
        rcases g5 y hy with h | h
        · exact .inl ((absRemove_sublist m send t).subset h)
        · exact .inr h
      · exact Nat.le_trans g6 ((absRemove_sublist m send t).countP_le)

/-- one iteration of the dispatch loop -/
theorem dispatch_step {H : Handler σ} {s : Sys σ} {x : Item} {t : List Item} {lo e : Nat}
    (h : SI s (x :: t)) (hlo : x.ts ≤ lo) (hH : ActsOk lo x (H s.hst s.nid x).2) (hx : x.ts < e) :
    ∃ s' t', (∀ fuel, dispatch H e (fuel + 1) s = dispatch H e fuel s') ∧ SI s' t' ∧ s'.clock = s.clock ∧
      s'.inq = s.inq ∧ s'.log = s.log ++ [⟨e, x⟩] ∧ (∀ y ∈ t', lex x y) ∧
      (∀ y ∈ t', y ∈ t ∨ lo ≤ y.ts) ∧
      t'.countP (fun y => decide (y.ts < lo)) ≤ t.countP (fun y => decide (y.ts < lo)) := by
  obtain ⟨as, ps, r⟩ := h.rep
  have hSI : SI { s with hst := (H s.hst s.nid x).1 } (x :: t) := ⟨h.rep, h.lex, h.ids, h.perm⟩
  obtain ⟨s1, t', e1, h1, f1, f2, f3, f4, f5, f6⟩ := execActs_ok hSI hlo hH
  obtain ⟨as1, ps1, r1⟩ := h1.rep
  obtain ⟨as2, ps2, r2⟩ := MQ.pop_rep r1
  refine ⟨{ s1 with q := MQ.pop s1.q, log := s1.log ++ [⟨e, x⟩] }, t', ?_, ⟨⟨as2, ps2, r2⟩, ?_, h1.ids, ?_⟩,
    f1, f2, by simp only [f4], ?_, f5, f6⟩
  · intro fuel
    conv => lhs; unfold dispatch
    simp only [r.hasMessageBefore, hx, decide_true, r.peek, List.head?_cons]
    rw [e1]
    rfl
  · exact (List.pairwise_cons.mp h1.lex).2
  · refine h1.perm.trans ?_
    simp only [List.map_append, List.map_cons, List.map_nil, List.append_assoc]
    refine List.Perm.append_left _ ?_
    simp only [List.singleton_append]
    exact List.perm_middle
  · exact (List.pairwise_cons.mp h1.lex).1

theorem dispatch_done {H : Handler σ} {s : Sys σ} {xs : List Item} {e fuel : Nat}
    (h : SI s xs) (hx : ∀ y, xs.head? = some y → e ≤ y.ts) : dispatch H e (fuel + 1) s = .ok s := by
  obtain ⟨as, ps, r⟩ := h.rep
  unfold dispatch
  rw [r.hasMessageBefore]
  cases xs with
  | nil => rfl
  | cons y ys =>
    have := hx y rfl
    have : ¬ y.ts < e := by omega
    simp [this]

theorem all_ge {s : Sys σ} {xs : List Item} {e : Nat} (h : SI s xs)
    (hx : ∀ y, xs.head? = some y → e ≤ y.ts) : ∀ y ∈ xs, e ≤ y.ts := by
  intro y hy
  cases xs with
  | nil => simp at hy
  | cons z zs =>
    have h1 := hx z rfl
    rcases List.mem_cons.mp hy with rfl | hy
    · exact h1
    · have := (List.pairwise_cons.mp h.sorted).1 y hy; omega

/-- the whole dispatch loop -/
theorem dispatch_ok {H : Handler σ} (hH : WellBehaved H) {e : Nat} (fuel : Nat) {s : Sys σ} {xs : List Item}
    (h : SI s xs) :
    dispatch H e fuel s = .error .diverge ∨
    ∃ s' xs', ∃ new : List Item, dispatch H e fuel s = .ok s' ∧ SI s' xs' ∧ s'.clock = s.clock ∧ s'.inq = s.inq ∧
      s'.log = s.log ++ new.map (fun x => ⟨e, x⟩) ∧
      (∀ y ∈ xs', e ≤ y.ts) ∧ (∀ d ∈ new, d.ts < e) ∧ new.Pairwise lex ∧
      (∀ d ∈ new, ∀ y ∈ xs', lex d y) ∧
      (∀ z, (∀ y ∈ xs, lex z y) → (∀ d ∈ new, lex z d) ∧ ∀ y ∈ xs', lex z y) ∧
      (∀ lb, (∀ y ∈ xs, lb ≤ y.ts) → (∀ d ∈ new, lb ≤ d.ts) ∧ ∀ y ∈ xs', lb ≤ y.ts) := by
  induction fuel generalizing s xs with
  | zero => exact .inl rfl
  | succ fuel ih =>
    by_cases hx : ∀ y, xs.head? = some y → e ≤ y.ts
    · exact .inr ⟨s, xs, [], dispatch_done h hx, h, rfl, rfl, by simp, all_ge h hx, by simp,
        List.Pairwise.nil, by simp, fun z hz => ⟨by simp, hz⟩, fun lb hlb => ⟨by simp, hlb⟩⟩
    · cases xs with
      | nil => simp at hx
      | cons x t =>
        have hx' : x.ts < e := by simp at hx; exact hx
        obtain ⟨s1, t1, e1, h1, f1, f2, f3, f4, f5, -⟩ :=
          dispatch_step (lo := x.ts) h (Nat.le_refl _) (hH _ _ _) hx'
        rw [e1]
        have hxt := (List.pairwise_cons.mp h.lex).1
        rcases ih h1 with hd | ⟨s', xs', new, g1, g2, g3, g4, g5, g6, g7, g8, g9, g10, g11⟩
        · exact .inl hd
        · right
          have hlow : ∀ lb, (∀ y ∈ x :: t, lb ≤ y.ts) → ∀ y ∈ t1, lb ≤ y.ts := by
            intro lb hlb y hy
            have := hlb x (by simp)
            rcases f5 y hy with h | h
            · exact hlb y (by simp [h])
            · omega
          refine ⟨s', xs', x :: new, g1, g2, by rw [g3, f1], by rw [g4, f2], by rw [g5, f3]; simp, g6, ?_, ?_, ?_, ?_, ?_⟩
          · intro d hd
            rcases List.mem_cons.mp hd with rfl | hd
            · exact hx'
            · exact g7 d hd
          · exact List.pairwise_cons.mpr ⟨(g10 x f4).1, g8⟩
          · intro d hd y hy
            rcases List.mem_cons.mp hd with rfl | hd
            · have := g6 y hy; unfold lex; omega
            · exact g9 d hd y hy
          · intro z hz
            have hzx := hz x (by simp)
            have hz1 := g10 z (fun y hy => lex_trans hzx (f4 y hy))
            refine ⟨?_, hz1.2⟩
            intro d hd
            rcases List.mem_cons.mp hd with rfl | hd
            · exact hzx
            · exact hz1.1 d hd
          · intro lb hlb
            have := g11 lb (hlow lb hlb)
            refine ⟨?_, this.2⟩
            intro d hd
            rcases List.mem_cons.mp hd with rfl | hd
            · exact hlb _ (by simp)
            · exact this.1 d hd

/-- the loop over the blocks of a `process` call, without overflow of the clock -/
theorem blocks_ok {H : Handler σ} (hH : WellBehaved H) {fuel N : Nat} (k : Nat) {e0 : Nat} {s : Sys σ}
    {xs : List Item} (h : SI s xs) (hov : e0 + k * N < 2^32) :
    blocks H fuel N k e0 s = .error .diverge ∨
    ∃ s' xs', ∃ new : List Disp, blocks H fuel N k e0 s = .ok (e0 + k * N, s') ∧ SI s' xs' ∧ s'.clock = s.clock ∧
      s'.inq = s.inq ∧ s'.log = s.log ++ new ∧
      (0 < k → ∀ y ∈ xs', e0 + k * N ≤ y.ts) ∧
      (∀ d ∈ new, d.item.ts < d.blockEnd ∧ (∃ j, 1 ≤ j ∧ j ≤ k ∧ d.blockEnd = e0 + j * N) ∧
        (d.blockEnd ≤ d.item.ts + N ∨ d.item.ts < e0 ∧ d.blockEnd = e0 + N)) ∧
      (new.map (·.item)).Pairwise lex ∧
      (∀ z, (∀ y ∈ xs, lex z y) → ∀ d ∈ new, lex z d.item) ∧
      (∀ lb, (∀ y ∈ xs, lb ≤ y.ts) → (∀ d ∈ new, lb ≤ d.item.ts) ∧ ∀ y ∈ xs', lb ≤ y.ts) := by
  induction k generalizing e0 s xs with
  | zero =>
    exact .inr ⟨s, xs, [], by simp [blocks], h, rfl, rfl, by simp, by simp, by simp, by simp, by simp,
      fun lb hlb => ⟨by simp, hlb⟩⟩
  | succ k ih =>
    have hk : (k + 1) * N = N + k * N := by rw [Nat.add_mul]; omega
    have hadd : add32 e0 N = e0 + N := by unfold add32; rw [Nat.mod_eq_of_lt]; omega
    unfold blocks
    simp only [hadd]
    rcases dispatch_ok hH (e := e0 + N) fuel h with hd | ⟨s1, xs1, new1, g1, g2, g3, g4, g5, g6, g7, g8, g9, g10, g11⟩
    · left; rw [hd]; rfl
    · rw [g1]
      simp only [bind, Except.bind]
      rcases ih (e0 := e0 + N) g2 (by omega) with hd | ⟨s', xs', new, k1, k2, k3, k4, k5, k6, k7, k8, k9, k11⟩
      · left; exact hd
      · right
        refine ⟨s', xs', new1.map (fun x => ⟨e0 + N, x⟩) ++ new, by rw [k1, hk]; congr 2; omega, k2, by rw [k3, g3],
          by rw [k4, g4], by rw [k5, g5, List.append_assoc], ?_, ?_, ?_, ?_, ?_⟩
        · intro _ y hy
          rcases Nat.eq_zero_or_pos k with rfl | hkp
          · have := (k11 (e0 + N) g6).2 y hy
            omega
          · have := k6 hkp y hy; omega
        · intro d hd
          rcases List.mem_append.mp hd with hd | hd
          · obtain ⟨x, hx, rfl⟩ := List.mem_map.mp hd
            have := g7 x hx
            refine ⟨this, ⟨1, by omega, by omega, by simp⟩, ?_⟩
            rcases Nat.lt_or_ge x.ts e0 with hl | hl
            · exact .inr ⟨hl, rfl⟩
            · exact .inl (by simp only; omega)
          · obtain ⟨h1, ⟨j, hj1, hj2, hj3⟩, h3⟩ := k7 d hd
            have hj : (j + 1) * N = N + j * N := by rw [Nat.add_mul]; omega
            refine ⟨h1, ⟨j + 1, by omega, by omega, by omega⟩, ?_⟩
            rcases h3 with h3 | h3
            · exact .inl h3
            · have := (k11 (e0 + N) g6).1 d hd
              omega
        · rw [List.map_append, List.map_map, List.pairwise_append]
          have hid : new1.map ((fun x : Disp => x.item) ∘ fun x => (⟨e0 + N, x⟩ : Disp)) = new1 := by
            simp [Function.comp_def]
          rw [hid]
          refine ⟨g8, k8, ?_⟩
          intro a ha b hb
          obtain ⟨d, hd, rfl⟩ := List.mem_map.mp hb
          exact k9 a (fun y hy => g9 a ha y hy) d hd
        · intro z hz d hd
          rcases List.mem_append.mp hd with hd | hd
          · obtain ⟨x, hx, rfl⟩ := List.mem_map.mp hd
            exact (g10 z hz).1 x hx
          · exact k9 z (g10 z hz).2 d hd
        · intro lb hlb
          have h1 := g11 lb hlb
          have h2 := k11 lb h1.2
          refine ⟨?_, h2.2⟩
          intro d hd
          rcases List.mem_append.mp hd with hd | hd
          · obtain ⟨x, hx, rfl⟩ := List.mem_map.mp hd
            exact h1.1 x hx
          · exact h2.1 d hd


/-- scheduling for all receivers of one host message -/
theorem schedReceivers_ok (rs : List Nat) {s : Sys σ} {xs : List Item} (h : SI s xs) (ts : Nat) :
    ∃ s' xs', schedReceivers s ts rs = .ok s' ∧ SI s' xs' ∧ s'.clock = s.clock ∧ s'.inq = s.inq ∧
      s'.log = s.log ∧ s'.cancelled = s.cancelled ∧
      (∃ ys, s'.added = s.added ++ ys ∧ ys.map (fun x => (x.ts, x.inlet, x.send)) = rs.map (fun r => (ts, 0, r)) ∧
        xs'.Perm (xs ++ ys)) := by
  induction rs generalizing s xs with
  | nil => exact ⟨s, xs, rfl, h, rfl, rfl, rfl, rfl, [], by simp, rfl, by simp⟩
  | cons r rs ih =>
    obtain ⟨s1, e1, h1, f1, f2, f3, f4, f5, f6, f7⟩ := sched_ok h ts 0 r
    obtain ⟨s2, xs2, e2, h2, g1, g2, g3, g4, ys, g5, g6, g7⟩ := ih h1
    refine ⟨s2, xs2, by simp only [schedReceivers, e1]; exact e2, h2, by rw [g1, f1], by rw [g2, f2],
      by rw [g3, f4], by rw [g4, f5], ⟨s.nid, ts, 0, r⟩ :: ys, by rw [g5, f7]; simp, by simp [g6], ?_⟩
    refine g7.trans ((List.Perm.append_right _ (insert_perm _ _ h.sorted)).trans ?_)
    exact List.perm_middle.symm

theorem drain_ok (recv : Nat → List Nat) (ms : List (Nat × Nat)) {s : Sys σ} {xs : List Item} (h : SI s xs) :
    ∃ s' xs', drain recv s ms = .ok s' ∧ SI s' xs' ∧ s'.clock = s.clock ∧ s'.inq = s.inq ∧
      s'.log = s.log ∧ s'.cancelled = s.cancelled ∧
      (∃ ys, s'.added = s.added ++ ys ∧
        ys.map (fun x => (x.ts, x.inlet, x.send)) = ms.flatMap (fun m => (recv m.1).map fun r => (m.2, 0, r)) ∧
        xs'.Perm (xs ++ ys)) := by
  induction ms generalizing s xs with
  | nil => exact ⟨s, xs, rfl, h, rfl, rfl, rfl, rfl, [], by simp, rfl, by simp⟩
  | cons m ms ih =>
    obtain ⟨hh, ts⟩ := m
    obtain ⟨s1, xs1, e1, h1, f1, f2, f3, f4, ys1, f5, f6, f7⟩ := schedReceivers_ok (recv hh) h ts
    obtain ⟨s2, xs2, e2, h2, g1, g2, g3, g4, ys2, g5, g6, g7⟩ := ih h1
    refine ⟨s2, xs2, by simp only [drain, e1]; exact e2, h2, by rw [g1, f1], by rw [g2, f2],
      by rw [g3, f3], by rw [g4, f4], ys1 ++ ys2, by rw [g5, f5]; simp, by simp [f6, g6], ?_⟩
    refine g7.trans ((List.Perm.append_right _ f7).trans ?_)
    simp

theorem si_init (h : MQ.Heap) (st : σ) : SI (initSys h st) [] :=
  ⟨⟨[], [], MQ.rep_init h⟩, List.Pairwise.nil, rfl, by simp [initSys]⟩

/-! ### rounding the block size -/

theorem roundDown_toNat (n : BitVec 32) (j : Nat) (hj : j ≤ 32) :
    (roundDown n (2^j)).toNat = n.toNat - n.toNat % 2^j := by
  unfold roundDown
  have hm : (n &&& BitVec.ofNat 32 (2^j - 1)).toNat = n.toNat % 2^j := by
    rw [BitVec.toNat_and, BitVec.toNat_ofNat, Nat.mod_eq_of_lt, Nat.and_two_pow_sub_one_eq_mod]
    have : 2^j ≤ 2^32 := Nat.pow_le_pow_right (by omega) hj
    have : 0 < 2^j := Nat.two_pow_pos j
    omega
  have hz : (n &&& BitVec.ofNat 32 (2^j - 1)) &&& (n &&& ~~~(BitVec.ofNat 32 (2^j - 1))) = 0 := by
    ext i hi
    simp only [BitVec.getElem_and, BitVec.getElem_not, BitVec.getElem_zero]
    cases n[i] <;> cases (BitVec.ofNat 32 (2^j - 1))[i] <;> simp
  have ho : (n &&& BitVec.ofNat 32 (2^j - 1)) ||| (n &&& ~~~(BitVec.ofNat 32 (2^j - 1))) = n := by
    ext i hi
    simp only [BitVec.getElem_and, BitVec.getElem_not, BitVec.getElem_or]
    cases n[i] <;> cases (BitVec.ofNat 32 (2^j - 1))[i] <;> simp
  have hs := BitVec.toNat_add_of_and_eq_zero hz
  have ha := BitVec.add_eq_or_of_and_eq_zero _ _ hz
  rw [ho] at ha
  rw [ha, hm] at hs
  omega


/-! ### what never changes, for arbitrary handlers -/

/-- `s'` is a later state of the same call: histories only grow, clock and input queue are unchanged -/
structure Later (s s' : Sys σ) : Prop where
  clock : s'.clock = s.clock
  inq : s'.inq = s.inq
  added : s.added <+: s'.added
  cancelled : s.cancelled <+: s'.cancelled
  log : s.log <+: s'.log

theorem Later.refl (s : Sys σ) : Later s s :=
  ⟨rfl, rfl, List.prefix_rfl, List.prefix_rfl, List.prefix_rfl⟩

theorem Later.trans {a b c : Sys σ} (h1 : Later a b) (h2 : Later b c) : Later a c :=
  ⟨h2.clock.trans h1.clock, h2.inq.trans h1.inq, h1.added.trans h2.added,
    h1.cancelled.trans h2.cancelled, h1.log.trans h2.log⟩

theorem sched_later {s s' : Sys σ} {ts inlet send} (h : sched s ts inlet send = .ok s') : Later s s' := by
  unfold sched at h
  simp only at h
  split at h
  · cases h
  · cases h
    exact ⟨rfl, rfl, List.prefix_append _ _, List.prefix_rfl, List.prefix_rfl⟩

theorem cancel_later {s s' : Sys σ} {m send} (h : cancel s m send = .ok s') : Later s s' := by
  unfold cancel at h
  split at h
  · cases h
  · cases h
    exact ⟨rfl, rfl, List.prefix_rfl, List.prefix_append _ _, List.prefix_rfl⟩

theorem execActs_later {acts : List Act} {s s' : Sys σ} (h : execActs s acts = .ok s') : Later s s' := by
  induction acts generalizing s with
  | nil => cases h; exact Later.refl _
  | cons a acts ih =>
    cases a with
    | sched ts inlet send =>
      simp only [execActs, bind, Except.bind] at h
      split at h
      · cases h
      · rename_i s1 h1
        exact (sched_later h1).trans (ih h)
    | cancel m send =>
      simp only [execActs, bind, Except.bind] at h
      split at h
      · cases h
      · rename_i s1 h1
        exact (cancel_later h1).trans (ih h)

theorem dispatch_later {H : Handler σ} {e fuel : Nat} {s s' : Sys σ} (h : dispatch H e fuel s = .ok s') :
    Later s s' := by
  induction fuel generalizing s with
  | zero => cases h
  | succ fuel ih =>
    unfold dispatch at h
    split at h
    · cases h
    · cases h; exact Later.refl _
    · split at h
      · cases h
      · simp only [bind, Except.bind] at h
        split at h
        · cases h
        · rename_i s1 h1
          have a := execActs_later h1
          have b := ih h
          refine Later.trans ⟨a.clock, a.inq, a.added, a.cancelled, a.log⟩ (Later.trans (b := _) ?_ b)
          exact ⟨rfl, rfl, List.prefix_rfl, List.prefix_rfl, List.prefix_append _ _⟩

theorem blocks_later {H : Handler σ} {fuel N k e0 e : Nat} {s s' : Sys σ}
    (h : blocks H fuel N k e0 s = .ok (e, s')) : Later s s' ∧ (e0 < 2^32 → e = (e0 + k * N) % 2^32) := by
  induction k generalizing s e0 with
  | zero => cases h; exact ⟨Later.refl _, fun he => by rw [Nat.zero_mul, Nat.add_zero, Nat.mod_eq_of_lt he]⟩
  | succ k ih =>
    simp only [blocks, bind, Except.bind] at h
    split at h
    · cases h
    · rename_i s1 h1
      have := ih h
      refine ⟨(dispatch_later h1).trans this.1, fun _ => ?_⟩
      rw [this.2 (Nat.mod_lt _ (by omega))]
      unfold add32
      rw [Nat.add_mul, Nat.mod_add_mod]
      congr 1
      omega

theorem schedReceivers_later {rs : List Nat} {ts : Nat} {s s' : Sys σ} (h : schedReceivers s ts rs = .ok s') :
    Later s s' := by
  induction rs generalizing s with
  | nil => cases h; exact Later.refl _
  | cons r rs ih =>
    simp only [schedReceivers, bind, Except.bind] at h
    split at h
    · cases h
    · rename_i s1 h1
      exact (sched_later h1).trans (ih h)

theorem drain_later {recv : Nat → List Nat} {ms : List (Nat × Nat)} {s s' : Sys σ}
    (h : drain recv s ms = .ok s') : Later s s' := by
  induction ms generalizing s with
  | nil => cases h; exact Later.refl _
  | cons m ms ih =>
    obtain ⟨hh, ts⟩ := m
    simp only [drain, bind, Except.bind] at h
    split at h
    · cases h
    · rename_i s1 h1
      exact (schedReceivers_later h1).trans (ih h)

end Verif.Sched
