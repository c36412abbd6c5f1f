import Verif.Props.RemapReady
import Verif.Props.ReduceAll
/-!
# C59: the theorems
-/
namespace Verif.Reduce

variable {α μ : Type} [DecidableEq α] [Field α]

theorem Mail.refl (W : World α μ) (g : Graph α) {n : Nat} (hn : ∀ o ∈ g.ids, o < n) : Mail W g g n n (fun _ => False) id (fun _ r => r) := by
  refine ⟨Nat.le_refl _, by simp, fun _ _ => rfl, fun _ _ _ _ => rfl, fun _ _ _ _ => rfl, fun _ _ => rfl, fun _ _ h => h.elim, fun s hs _ => hs,
    fun s _ q _ _ _ e => e, fun _ _ _ => rfl, fun w hw h => ?_, fun _ _ _ h => h.elim, fun log _ => ?_⟩
  · have := hn w hw; omega
  · have A : ∀ v, Alike g g log v v := fun v p _ _ => ⟨fun _ _ => rfl, fun _ _ => ⟨rfl, rfl⟩⟩
    exact ⟨fun v hv => ⟨v, hv, A v⟩, fun v hv => ⟨v, hv, A v⟩⟩

/-- two steps -/
theorem Mail.trans {W : World α μ} {g g1 g2 : Graph α} {n n1 n2 : Nat} {D1 D2 : Nat → Prop} {wr1 wr2 : Nat → Nat}
    {rd1 rd2 : Nat → Nat → Nat} (a : Mail (W.via wr2 rd2) g g1 n n1 D1 wr1 rd1) (b : Mail W g1 g2 n1 n2 D2 wr2 rd2)
    (hn : ∀ o ∈ g.ids, o < n) (hn1 : ∀ o ∈ g1.ids, o < n1) (hD1 : ∀ p, D1 p → p ∈ g.ids)
    (hD2 : ∀ p, D2 p → p ∈ g1.ids ∧ ((∃ m, g1.kind p = .send m) ∨ ∃ m, g1.kind p = .receive m))
    (hname : ∀ s r m, g.kind s = .send m → g.kind r = .receive m → ¬ (D1 s ∧ D2 r) ∧ ¬ (D2 s ∧ D1 r)) :
    Mail W g g2 n n2 (fun p => D1 p ∨ D2 p) (fun s => wr2 (wr1 s)) (fun s r => rd2 (wr1 s) (rd1 s r)) := by
  have l1 := a.le
  have l2 := b.le
  have hD2n : ∀ p, D2 p → p < n := fun p h => by
    obtain ⟨h1, h2⟩ := hD2 p h
    refine Nat.lt_of_not_le fun hle => ?_
    have := a.fresh p h1 hle
    rcases h2 with ⟨m, h2⟩ | ⟨m, h2⟩
    · exact this.1 m h2
    · exact this.2.1 m h2
  have hdis : ∀ p, D1 p → D2 p → False := fun p h1 h2 =>
    ((a.ids p (hn p (hD1 p h1))).1 (hD2 p h2).1).2 h1
  have hplain : ∀ p, (∀ m, g1.kind p ≠ .send m) → (∀ m, g1.kind p ≠ .receive m) → ¬ D2 p := fun p h1 h2 h => by
    rcases (hD2 p h).2 with ⟨m, h⟩ | ⟨m, h⟩
    · exact h1 m h
    · exact h2 m h
  have hids : ∀ p < n, p ∈ g2.ids ↔ p ∈ g.ids ∧ ¬ (D1 p ∨ D2 p) := by
    intro p hp
    rw [b.ids p (by omega), a.ids p hp]
    constructor
    · rintro ⟨⟨h1, h2⟩, h3⟩; exact ⟨h1, fun h => h.elim h2 h3⟩
    · rintro ⟨h1, h2⟩; exact ⟨⟨h1, fun h => h2 (.inl h)⟩, fun h => h2 (.inr h)⟩
  have hnr : ∀ s ∈ g.ids, (∀ m, g.kind s ≠ .receive m) → wr1 s ∈ g1.ids ∧ ∀ m, g1.kind (wr1 s) ≠ .receive m := by
    intro s hs hk
    have hm := a.wrMem s hs hk
    refine ⟨hm, ?_⟩
    by_cases h : D1 s
    · exact (a.fresh _ hm (a.wrNew s hs h hk)).2.1
    · rw [a.wrOld s h, a.kind s (hn s hs)]; exact hk
  refine ⟨by omega, hids, fun p hp => by rw [b.kind p (by omega), a.kind p hp], ?_, ?_, ?_, ?_, ?_, ?_, ?_, ?_, ?_, ?_⟩
  · intro p hp hD j
    have h1 : ¬ D1 p := fun h => hD (.inl h)
    rw [b.order p ((a.ids p (hn p hp)).2 ⟨hp, h1⟩) (fun h => hD (.inr h)), a.order p hp h1]
  · intro p hp hD i
    have h1 : ¬ D1 p := fun h => hD (.inl h)
    rw [b.sig p ((a.ids p (hn p hp)).2 ⟨hp, h1⟩) (fun h => hD (.inr h)), a.sig p hp h1]
  · intro p hD
    rw [a.wrOld p fun h => hD (.inl h), b.wrOld p fun h => hD (.inr h)]
  · intro s hs hD hk
    obtain ⟨h1, h2⟩ := hnr s hs hk
    rcases hD with h | h
    · have h3 := a.wrNew s hs h hk
      have : ¬ D2 (wr1 s) := fun h => by have := hD2n _ h; omega
      rw [b.wrOld _ this]; exact h3
    · have : ¬ D1 s := fun h' => hdis s h' h
      rw [a.wrOld s this] at h1 h2 ⊢
      have := b.wrNew s h1 h h2
      omega
  · intro s hs hk
    obtain ⟨h1, h2⟩ := hnr s hs hk
    exact b.wrMem _ h1 h2
  · intro s hs q hq ks kq e
    obtain ⟨h1, h2⟩ := hnr s hs ks
    obtain ⟨h3, h4⟩ := hnr q hq kq
    exact a.wrInj s hs q hq ks kq (b.wrInj _ h1 _ h3 h2 h4 e)
  · intro p q h
    have hr : rd1 p q = q := a.rdOld p q fun h' => h ⟨.inl h'.1, .inl h'.2⟩
    rw [hr]
    by_cases hq : D2 q
    · have hp : ¬ (D1 p ∨ D2 p) := fun hp => h ⟨hp, .inr hq⟩
      rw [a.wrOld p fun h => hp (.inl h)]
      exact b.rdOld p q fun h => hp (.inr h.1)
    · exact b.rdOld _ q fun h => hq h.2
  · intro w hw hle
    by_cases h : n1 ≤ w
    · obtain ⟨h1, h2, h3⟩ := b.fresh w hw h
      exact ⟨h1, h2, fun y hy => by have := h3 y hy; omega⟩
    · have hw1 := ((b.ids w (by omega)).1 hw).1
      rw [b.kind w (by omega)]
      exact a.fresh w hw1 hle
  · intro s r m hs hr ks kr
    rcases hs with hs | hs
    · have hr : D1 r := hr.resolve_right fun h => (hname s r m ks kr).1 ⟨hs, h⟩
      obtain ⟨y, y1, y2, w1, w2, w3, r1, r2⟩ := a.post s r m hs hr ks kr
      have stay : ∀ p ∈ g1.ids, (∀ m, g1.kind p ≠ .send m) → (∀ m, g1.kind p ≠ .receive m) → p ∈ g2.ids ∧ g2.kind p = g1.kind p :=
        fun p hp h1 h2 => ⟨(b.ids p (hn1 p hp)).2 ⟨hp, hplain p h1 h2⟩, b.kind p (hn1 p hp)⟩
      have sy := stay y y1 (by simp [y2]) (by simp [y2])
      have sw := stay _ w1 (by simp [w2]) (by simp [w2])
      have sr := stay _ r1 (by simp [r2]) (by simp [r2])
      have ew : wr2 (wr1 s) = wr1 s := b.wrOld _ (hplain _ (by simp [w2]) (by simp [w2]))
      have er : rd2 (wr1 s) (rd1 s r) = rd1 s r := b.rdOld _ _ fun h => hplain _ (by simp [w2]) (by simp [w2]) h.1
      simp only [ew, er]
      refine ⟨y, sy.1, by rw [sy.2, y2], sw.1, by rw [sw.2, w2], fun w hw hk => ?_, sr.1, by rw [sr.2, r2]⟩
      by_cases h : n1 ≤ w
      · have := (b.fresh w hw h).2.2 y hk
        have := hn1 y y1
        omega
      · have hw1 := ((b.ids w (by omega)).1 hw).1
        rw [b.kind w (by omega)] at hk
        exact w3 w hw1 hk
    · have hr : D2 r := hr.resolve_left fun h => (hname s r m ks kr).2 ⟨hs, h⟩
      have h1 : ¬ D1 s := fun h => hdis s h hs
      have ew := a.wrOld s h1
      have er := a.rdOld s r fun h => h1 h.1
      simp only [ew, er]
      exact b.post s r m hs hr (by rw [a.kind s (hD2n s hs)]; exact ks) (by rw [a.kind r (hD2n r hr)]; exact kr)
  · intro log hlog
    obtain ⟨a1, a2⟩ := a.signals log hlog
    obtain ⟨b1, b2⟩ := b.signals log fun t e he => by have := hlog t e he; omega
    have A : ∀ v v1 v2, Alike g g1 log v v1 → Alike g1 g2 log v1 v2 → Alike g g2 log v v2 := by
      intro v v1 v2 x y p hp hp2
      have hp1 := ((b.ids p (by have := hn p hp; omega)).1 hp2).1
      obtain ⟨x1, x2⟩ := x p hp hp1
      obtain ⟨y1, y2⟩ := y p hp1 hp2
      exact ⟨fun j t => by rw [y1, x1], fun i t => ⟨by rw [(y2 i t).1, (x2 i t).1], by rw [(y2 i t).2, (x2 i t).2]⟩⟩
    constructor
    · intro v hv
      obtain ⟨v1, h1, h2⟩ := a1 v hv
      obtain ⟨v2, h3, h4⟩ := b1 v1 h1
      exact ⟨v2, h3, A _ _ _ h2 h4⟩
    · intro v2 hv
      obtain ⟨v1, h1, h2⟩ := b2 v2 hv
      obtain ⟨v, h3, h4⟩ := a2 v1 h1
      exact ⟨v, h3, A _ _ _ h4 h2⟩

/-- the sends and receives of these names -/
def Dealt (g : Graph α) (names : List String) (p : Nat) : Prop := Postal g p ∧ ∃ k ∈ names, g.kind p = .send k ∨ g.kind p = .receive k

theorem remapNames_ok {T : Option Typing} : ∀ (l : List (String × List Nat × List Nat)) (g : Graph α) (n : Nat) (M : Multiset Conn), ReadyT T g n M →
    Posted g M → (l.map (·.1)).Nodup →
    (∀ e ∈ l, e.2.1 = (g.ids.filter fun s => (g.kind s).isSend e.1) ∧ e.2.2 = g.ids.filter fun r => (g.kind r).isReceive e.1) →
    ∃ g' n' M' wr rd, g.remapNames n l = some (g', n') ∧ ReadyT T g' n' M' ∧ Posted g' M' ∧
      ∀ W : World α μ, Mail W g g' n n' (Dealt g (l.map (·.1))) wr rd := by
  intro l
  induction l with
  | nil =>
    intro g n M h p _ _
    refine ⟨g, n, M, id, fun _ r => r, rfl, h, p, fun W => ?_⟩
    have : Dealt g (([] : List (String × List Nat × List Nat)).map (·.1)) = fun _ => False := by
      funext p; simp [Dealt]
    rw [this]
    exact Mail.refl W g h.below
  | cons e l ih =>
    obtain ⟨m, S, R⟩ := e
    intro g n M h p hnd hl
    obtain ⟨e1, e2⟩ := hl (m, S, R) (by simp)
    simp only at e1 e2
    subst e1 e2
    simp only [List.map_cons, List.nodup_cons] at hnd
    by_cases hne : ((g.ids.filter fun s => (g.kind s).isSend m).filter fun s => fmt (g.ins s 0) = 'f') = []
    · obtain ⟨g', n', M', wr, rd, f1, f2, f3, f4⟩ := ih g n M h p hnd.2 (fun e he => hl e (by simp [he]))
      refine ⟨g', n', M', wr, rd, ?_, f2, f3, fun W => ?_⟩
      · simp only [Graph.remapNames, hne, Graph.remapName, bind, Option.bind]; exact f1
      · have : Dealt g (((m, (g.ids.filter fun s => (g.kind s).isSend m), g.ids.filter fun r => (g.kind r).isReceive m) :: l).map (·.1)) =
            Dealt g (l.map (·.1)) := by
          funext q
          refine propext ⟨?_, fun ⟨h1, k, h2, h3⟩ => ⟨h1, k, by simp only [List.map_cons]; exact List.mem_cons_of_mem _ h2, h3⟩⟩
          rintro ⟨h1, k, h2, h3⟩
          simp only [List.map_cons, List.mem_cons] at h2
          rcases h2 with rfl | h2
          · exfalso
            have hlive : Live.name g k := by
              rcases h1.2 with ⟨k', h4, h5⟩ | ⟨k', h4, h5⟩
              · rcases h3 with h3 | h3
                · rw [h4] at h3
                  have : k' = k := by simpa using h3
                  subst this
                  exact ⟨q, h1.1, h4, h5⟩
                · rw [h4] at h3; simp at h3
              · rcases h3 with h3 | h3
                · rw [h4] at h3; simp at h3
                · rw [h4] at h3
                  have : k' = k := by simpa using h3
                  subst this
                  exact h5
            obtain ⟨s, h6, h7, h8⟩ := hlive
            have : s ∈ ((g.ids.filter fun s => (g.kind s).isSend k).filter fun s => fmt (g.ins s 0) = 'f') := by
              rw [List.mem_filter, List.mem_filter, isSend_iff, decide_eq_true_eq]
              refine ⟨⟨h6, h7⟩, all_fmt ?_ fun c hc => ?_⟩
              · intro e; rw [e] at h8; simp [hasSignal] at h8
              · obtain ⟨q1, q2, -⟩ := h.wired.mem_ins.1 hc
                exact p.sendTy k ⟨s, h6, h7, h8⟩ s h6 h7 c q1 q2
            rw [hne] at this
            simp at this
          · exact ⟨h1, k, h2, h3⟩
        rw [this]
        exact f4 W
    · have C := call_of h p m hne
      obtain ⟨g1, n1, wr1, var, so, rd1, E, s1, s2⟩ := remapName_ok C.place hne
      have P : Post T g n M m _ _ g1 n1 wr1 var so rd1 E := ⟨C, s2⟩
      have hids := s2.mem_ids C.place
      have hk : ∀ k ≠ m, ∀ q, (q ∈ g1.ids ∧ g1.kind q = .send k ↔ q ∈ g.ids ∧ g.kind q = .send k) ∧
          (q ∈ g1.ids ∧ g1.kind q = .receive k ↔ q ∈ g.ids ∧ g.kind q = .receive k) := by
        intro k hk q
        constructor
        · constructor
          · rintro ⟨h1, h2⟩
            obtain ⟨a, -, -, e⟩ := P.kindOld h1 (.inl ⟨k, h2⟩)
            exact ⟨a, by rw [← e]; exact h2⟩
          · rintro ⟨h1, h2⟩
            refine ⟨(hids q).2 (.inl ⟨h1, fun h => ?_, fun h => ?_⟩), by rw [s2.kind q (h.below q h1)]; exact h2⟩
            · have := ((C.sends q).1 h).2.1
              rw [h2] at this
              exact hk (by simpa using this)
            · have := ((C.receives q).1 h).2
              rw [h2] at this; simp at this
        · constructor
          · rintro ⟨h1, h2⟩
            obtain ⟨a, -, -, e⟩ := P.kindOld h1 (.inr (.inl ⟨k, h2⟩))
            exact ⟨a, by rw [← e]; exact h2⟩
          · rintro ⟨h1, h2⟩
            refine ⟨(hids q).2 (.inl ⟨h1, fun h => ?_, fun h => ?_⟩), by rw [s2.kind q (h.below q h1)]; exact h2⟩
            · have := ((C.sends q).1 h).2.1
              rw [h2] at this; simp at this
            · have := ((C.receives q).1 h).2
              rw [h2] at this
              exact hk (by simpa using this)
      have hlists : ∀ (f : Kind α → Bool), (∀ x, n ≤ x → x < n1 → f (g1.kind x) = false) →
          (∀ q ∈ ((g.ids.filter fun s => (g.kind s).isSend m).filter fun s => fmt (g.ins s 0) = 'f'), f (g.kind q) = false) →
          (∀ q ∈ (g.ids.filter fun r => (g.kind r).isReceive m), f (g.kind q) = false) →
          (g1.ids.filter fun s => f (g1.kind s)) = g.ids.filter fun s => f (g.kind s) := by
        intro f h1 h2 h3
        rw [s2.ids, List.filter_append]
        have h4 : (List.range' n (n1 - n)).filter (fun s => f (g1.kind s)) = [] := by
          rw [List.filter_eq_nil_iff]
          intro q hq
          have := s2.le
          have hq := List.mem_range'_1.1 hq
          rw [h1 q hq.1 (by omega)]; simp
        rw [h4, List.append_nil, List.filter_filter]
        refine List.filter_congr fun q hq => ?_
        rw [s2.kind q (h.below q hq)]
        by_cases hs : q ∈ ((g.ids.filter fun s => (g.kind s).isSend m).filter fun s => fmt (g.ins s 0) = 'f')
        · rw [h2 q hs]; simp
        · by_cases hr : q ∈ (g.ids.filter fun r => (g.kind r).isReceive m)
          · rw [h3 q hr]; simp
          · rw [decide_eq_true (⟨hs, hr⟩ : q ∉ _ ∧ q ∉ _), Bool.and_true]
      have hnames : ∀ e ∈ l, e.1 ≠ m := fun e he h => hnd.1 (h ▸ List.mem_map_of_mem (f := (·.1)) he)
      obtain ⟨g', n', M', wr, rd, f1, f2, f3, f4⟩ := ih g1 n1 _ P.ready P.posted hnd.2 (by
        intro e he
        obtain ⟨q1, q2⟩ := hl e (by simp [he])
        rw [q1, q2]
        constructor
        · refine (hlists (fun K => K.isSend e.1) ?_ ?_ ?_).symm
          · intro x h1 h2
            have := (P.newKind h1 h2).1 e.1
            rw [Bool.eq_false_iff, Ne, isSend_iff]; exact this
          · intro q hq
            rw [((C.sends q).1 hq).2.1, Bool.eq_false_iff, Ne, isSend_iff]
            intro h
            exact hnames e he (by simpa using h.symm)
          · intro q hq
            rw [((C.receives q).1 hq).2]; rfl
        · refine (hlists (fun K => K.isReceive e.1) ?_ ?_ ?_).symm
          · intro x h1 h2
            have := (P.newKind h1 h2).2.1 e.1
            rw [Bool.eq_false_iff, Ne, isReceive_iff]; exact this
          · intro q hq
            rw [((C.sends q).1 hq).2.1]; rfl
          · intro q hq
            rw [((C.receives q).1 hq).2, Bool.eq_false_iff, Ne, isReceive_iff]
            intro h
            exact hnames e he (by simpa using h.symm))
      have hsig : ∀ k ≠ m, ∀ q ∈ g.ids, g.kind q = .send k → hasSignal (g1.ins q 0) = hasSignal (g.ins q 0) := by
        intro k hk q hq hq2
        have := (s2.into C.place hq 0).hasSignal
        rw [s2.wrOld] at this
        · exact this
        · intro h
          have := ((C.sends q).1 h).2.1
          rw [hq2] at this
          exact hk (by simpa using this)
      have hlive : ∀ k ≠ m, Live.name g1 k ↔ Live.name g k := by
        intro k hkm
        constructor
        · rintro ⟨s, h1, h2, h3⟩
          obtain ⟨h4, h5⟩ := ((hk k hkm s).1).1 ⟨h1, h2⟩
          exact ⟨s, h4, h5, by rw [← hsig k hkm s h4 h5]; exact h3⟩
        · rintro ⟨s, h1, h2, h3⟩
          obtain ⟨h4, h5⟩ := ((hk k hkm s).1).2 ⟨h1, h2⟩
          exact ⟨s, h4, h5, by rw [hsig k hkm s h1 h2]; exact h3⟩
      have hD : Dealt g1 (l.map (·.1)) = Dealt g (l.map (·.1)) := by
        funext q
        have hmem : ∀ k ∈ l.map (·.1), k ≠ m := fun k hk h => hnd.1 (h ▸ hk)
        refine propext ⟨?_, ?_⟩
        · rintro ⟨⟨h0, h1⟩, k, h2, h3⟩
          have hkm := hmem k h2
          rcases h3 with h3 | h3
          · obtain ⟨a, b⟩ := ((hk k hkm q).1).1 ⟨h0, h3⟩
            refine ⟨⟨a, .inl ⟨k, b, ?_⟩⟩, k, h2, .inl b⟩
            rcases h1 with ⟨k', h4, h5⟩ | ⟨k', h4, -⟩
            · rw [← hsig k hkm q a b]; exact h5
            · rw [h3] at h4; simp at h4
          · obtain ⟨a, b⟩ := ((hk k hkm q).2).1 ⟨h0, h3⟩
            refine ⟨⟨a, .inr ⟨k, b, ?_⟩⟩, k, h2, .inr b⟩
            rcases h1 with ⟨k', h4, -⟩ | ⟨k', h4, h5⟩
            · rw [h3] at h4; simp at h4
            · rw [h3] at h4
              have : k = k' := by simpa using h4
              subst this
              exact (hlive k hkm).1 h5
        · rintro ⟨⟨h0, h1⟩, k, h2, h3⟩
          have hkm := hmem k h2
          rcases h3 with h3 | h3
          · obtain ⟨a, b⟩ := ((hk k hkm q).1).2 ⟨h0, h3⟩
            refine ⟨⟨a, .inl ⟨k, b, ?_⟩⟩, k, h2, .inl b⟩
            rcases h1 with ⟨k', h4, h5⟩ | ⟨k', h4, -⟩
            · rw [hsig k hkm q h0 h3]; exact h5
            · rw [h3] at h4; simp at h4
          · obtain ⟨a, b⟩ := ((hk k hkm q).2).2 ⟨h0, h3⟩
            refine ⟨⟨a, .inr ⟨k, b, ?_⟩⟩, k, h2, .inr b⟩
            rcases h1 with ⟨k', h4, -⟩ | ⟨k', h4, h5⟩
            · rw [h3] at h4; simp at h4
            · rw [h3] at h4
              have : k = k' := by simpa using h4
              subst this
              exact (hlive k hkm).2 h5
      refine ⟨g', n', M', fun s => wr (wr1 s), fun s r => rd (wr1 s) (reads
        ((g.ids.filter fun s => (g.kind s).isSend m).filter fun s => fmt (g.ins s 0) = 'f')
        (g.ids.filter fun r => (g.kind r).isReceive m) rd1 s r), ?_, f2, f3, fun W => ?_⟩
      · simp only [Graph.remapNames, s1, bind, Option.bind]; exact f1
      · have T := (P.mail (W.via wr rd)).trans (f4 W) h.below P.ready.below (by
            rintro q (hq | hq)
            · exact C.place.ssMem q hq
            · exact C.place.rsMem q hq) (by
            rintro q ⟨h1, k, -, h3⟩
            exact ⟨h1.1, h3.imp (fun h => ⟨k, h⟩) (fun h => ⟨k, h⟩)⟩) (by
            intro s r k ks kr
            rw [hD]
            constructor
            · rintro ⟨h1, -, k', h2, h3⟩
              have hm : k = m := by
                rcases h1 with h1 | h1
                · have := ((C.sends s).1 h1).2.1
                  rw [ks] at this; simpa using this
                · have := ((C.receives s).1 h1).2
                  rw [ks] at this; simp at this
              rcases h3 with h3 | h3
              · rw [kr] at h3; simp at h3
              · rw [kr] at h3
                have : k = k' := by simpa using h3
                subst this
                exact hnd.1 (hm ▸ h2)
            · rintro ⟨⟨-, k', h2, h3⟩, h1⟩
              have hm : k = m := by
                rcases h1 with h1 | h1
                · have := ((C.sends r).1 h1).2.1
                  rw [kr] at this; simp at this
                · have := ((C.receives r).1 h1).2
                  rw [kr] at this; simpa using this
              rcases h3 with h3 | h3
              · rw [ks] at h3
                have : k = k' := by simpa using h3
                subst this
                exact hnd.1 (hm ▸ h2)
              · rw [ks] at h3; simp at h3)
        rw [hD] at T
        have hDD : (fun q => (q ∈ ((g.ids.filter fun s => (g.kind s).isSend m).filter fun s => fmt (g.ins s 0) = 'f') ∨
              q ∈ (g.ids.filter fun r => (g.kind r).isReceive m)) ∨ Dealt g (l.map (·.1)) q) =
            Dealt g (((m, (g.ids.filter fun s => (g.kind s).isSend m), g.ids.filter fun r => (g.kind r).isReceive m) :: l).map (·.1)) := by
          obtain ⟨s0, hs0⟩ := List.exists_mem_of_ne_nil _ hne
          have hl0 : Live.name g m := ⟨s0, (C.sends s0).1 hs0⟩
          funext q
          refine propext ⟨?_, ?_⟩
          · rintro ((h1 | h1) | ⟨h1, k, h2, h3⟩)
            · have := (C.sends q).1 h1
              exact ⟨⟨this.1, .inl ⟨m, this.2⟩⟩, m, by simp, .inl this.2.1⟩
            · have := (C.receives q).1 h1
              exact ⟨⟨this.1, .inr ⟨m, this.2, hl0⟩⟩, m, by simp, .inr this.2⟩
            · exact ⟨h1, k, by simp only [List.map_cons]; exact List.mem_cons_of_mem _ h2, h3⟩
          · rintro ⟨⟨h0, h1⟩, k, h2, h3⟩
            simp only [List.map_cons, List.mem_cons] at h2
            rcases h2 with rfl | h2
            · left
              rcases h3 with h3 | h3
              · left
                rcases h1 with ⟨k', h4, h5⟩ | ⟨k', h4, -⟩
                · exact (C.sends q).2 ⟨h0, h3, h5⟩
                · rw [h3] at h4; simp at h4
              · exact .inr ((C.receives q).2 ⟨h0, h3⟩)
            · exact .inr ⟨⟨h0, h1⟩, k, h2, h3⟩
        rw [hDD] at T
        exact T

theorem letters_nodup (l : List String) : l.eraseDups.Nodup := by
  induction h : l.length using Nat.strong_induction_on generalizing l with
  | _ k ih =>
    cases l with
    | nil => simp
    | cons a l =>
      rw [List.eraseDups_cons, List.nodup_cons]
      refine ⟨?_, ?_⟩
      · rw [List.mem_eraseDups, List.mem_filter]
        simp
      · have := List.length_filter_le (fun b => !b == a) l
        simp only [List.length_cons] at h
        exact ih _ (by omega) _ rfl

/-- all names of sends and receives are visited -/
theorem dealt_letters (g : Graph α) : Dealt g (g.letters.map (·.1)) = Postal g := by
  funext q
  refine propext ⟨fun h => h.1, fun h => ⟨h, ?_⟩⟩
  have key : ∀ k, (g.kind q).letter = some k → k ∈ g.letters.map (·.1) := by
    intro k hk
    rw [Graph.letters, List.map_map, Function.comp_def, List.map_id']
    rw [List.mem_eraseDups, List.mem_filterMap]
    exact ⟨q, h.1, hk⟩
  rcases h.2 with ⟨k, h1, -⟩ | ⟨k, h1, -⟩
  · exact ⟨k, key k (by rw [h1]; rfl), .inl h1⟩
  · exact ⟨k, key k (by rw [h1]; rfl), .inr h1⟩

theorem remap_ok {T : Option Typing} {g : Graph α} {n : Nat} {M : Multiset Conn} (h : ReadyT T g n M) (p : Posted g M) :
    ∃ g' n' M' wr rd, g.remap n = some (g', n') ∧ ReadyT T g' n' M' ∧ Posted g' M' ∧ ∀ W : World α μ, Mail W g g' n n' (Postal g) wr rd := by
  have hnames : (g.letters.map (·.1)).Nodup := by
    rw [Graph.letters, List.map_map, Function.comp_def, List.map_id']
    exact letters_nodup _
  have := remapNames_ok (μ := μ) g.letters g n M h p hnames (by
    intro e he
    obtain ⟨m, -, rfl⟩ := List.mem_map.1 he
    exact ⟨rfl, rfl⟩)
  rwa [dealt_letters] at this

/-- **C59.**  Every patch whose sends and receives are connected as such is compiled: no send of a signal and no receive of such
a name is left; all other objects are there, unchanged, and their messages go the same ways in the same order.  Every send of a signal has
become the only write of a variable of its own, and for every receive of its name there is a read of this variable.  The
signals of the patch are those of the result: in the patch every receive gets the sum of all that is sent under its name, what
`s` sends being one block late at `r` exactly when the read of the variable runs before the write.
(Missing: names that stand for signals and for messages at once, loops of signals inside one block.) -/
theorem sends_arrive_partial {g : Graph α} {n : Nat} {M : Multiset Conn} (h : Ready g n M) (p : Posted g M) :
    ∃ g' n' M' wr rd, g.remap n = some (g', n') ∧ Ready g' n' M' ∧ (∀ q ∈ g'.ids, ¬ Postal g' q) ∧
      (∀ q ∈ g.ids, (q ∈ g'.ids ↔ ¬ Postal g q) ∧ g'.kind q = g.kind q) ∧
      (∀ q ∈ g.ids, ¬ Postal g q → ∀ j, ctl (g'.outs q j) = ctl (g.outs q j)) ∧
      (∀ s r m, Postal g s → Postal g r → g.kind s = .send m → g.kind r = .receive m → ∃ y ∈ g'.ids, g'.kind y = .varSig ∧
        wr s ∈ g'.ids ∧ g'.kind (wr s) = .varWrite y ∧ (∀ w ∈ g'.ids, g'.kind w = .varWrite y → w = wr s) ∧
        rd s r ∈ g'.ids ∧ g'.kind (rd s r) = .varRead y) ∧
      (∀ s q m k, Postal g s → Postal g q → g.kind s = .send m → g.kind q = .send k → wr s = wr q → s = q) ∧
      ∀ (W : World α μ) (log : Nat → List (Sent μ)), (∀ t, ∀ e ∈ log t, e.src ∈ g.ids) →
        (∀ v, Solves (W.via wr rd) g log v → ∃ v', Solves W g' log v' ∧ Alike g g' log v v') ∧
        ∀ v', Solves W g' log v' → ∃ v, Solves (W.via wr rd) g log v ∧ Alike g g' log v v' := by
  obtain ⟨g', n', M', wr, rd, e1, e2, -, e4⟩ := remap_ok (μ := μ) h p
  have S := e4 ⟨fun _ a _ => a, fun _ a => a, fun _ => none, fun _ _ _ _ _ => 0, fun _ _ => false, 1⟩
  refine ⟨g', n', M', wr, rd, e1, e2, ?_, ?_, S.order, S.post, ?_, fun W log hl => (e4 W).signals log fun t e he => h.below _ (hl t e he)⟩
  · rintro q hq ⟨-, hp⟩
    have hqn : q < n := by
      refine Nat.lt_of_not_le fun hle => ?_
      have := S.fresh q hq hle
      rcases hp with ⟨m, h1, -⟩ | ⟨m, h1, -⟩
      · exact this.1 m h1
      · exact this.2.1 m h1
    obtain ⟨hm, hD⟩ := (S.ids q hqn).1 hq
    refine hD ⟨hm, ?_⟩
    have hlive : ∀ m, Live.name g' m → Live.name g m := by
      rintro m ⟨s, h1, h2, h3⟩
      have hsn : s < n := Nat.lt_of_not_le fun hle => (S.fresh s h1 hle).1 m h2
      obtain ⟨h4, h5⟩ := (S.ids s hsn).1 h1
      exact ⟨s, h4, by rw [← S.kind s hsn]; exact h2, by rw [← S.sig s h4 h5]; exact h3⟩
    rcases hp with ⟨m, h1, h2⟩ | ⟨m, h1, h2⟩
    · exact .inl ⟨m, by rw [← S.kind q hqn]; exact h1, by rw [← S.sig q hm hD]; exact h2⟩
    · exact .inr ⟨m, by rw [← S.kind q hqn]; exact h1, hlive m h2⟩
  · intro q hq
    refine ⟨?_, S.kind q (h.below q hq)⟩
    rw [S.ids q (h.below q hq)]
    exact ⟨fun h => h.2, fun h => ⟨hq, h⟩⟩
  · intro s q m k hs hq ks kq e
    exact S.wrInj s hs.1 q hq.1 (by simp [ks]) (by simp [kq]) e

/-- the two passes of `HeavyGraph.prepare` together (HeavyGraph.py:442-449): first the sends and receives, then the operators -/
theorem prepared_partial {g : Graph α} {n : Nat} {M : Multiset Conn} (h : Ready g n M) (p : Posted g M) :
    ∃ g1 n1 g' n' wr rd ρ, g.remap n = some (g1, n1) ∧ g1.reduce n1 = some (g', n') ∧
      (∀ q ∈ g'.ids, (g'.kind q).lang = false) ∧
      (∀ q ∈ g.ids, ¬ Postal g q → (g.kind q).lang = false → q ∈ g'.ids ∧ g'.kind q = g.kind q ∧ ρ q = q) ∧
      (∀ s r m, Postal g s → Postal g r → g.kind s = .send m → g.kind r = .receive m → ∃ y ∈ g'.ids, g'.kind y = .varSig ∧
        wr s ∈ g'.ids ∧ g'.kind (wr s) = .varWrite y ∧ rd s r ∈ g'.ids ∧ g'.kind (rd s r) = .varRead y) ∧
      ∀ (W : World α μ) (log : Nat → List (Sent μ)), (∀ t, ∀ e ∈ log t, e.src ∈ g.ids) →
        let same := fun (v v' : Nat → Nat → Nat → α) => ∀ q ∈ g.ids, ¬ Postal g q → (g.kind q).lang = false →
          (∀ j t, v' q j t = v q j t) ∧ ∀ i t, inSum v' (g'.ins q i) t = inSum v (g.ins q i) t ∧
            received (rename ρ log t) (g'.ins q i) = received (log t) (g.ins q i)
        (∀ v, Solves (W.via wr rd) g log v → ∃ v', Solves W g' (rename ρ log) v' ∧ same v v') ∧
        ∀ v', Solves W g' (rename ρ log) v' → ∃ v, Solves (W.via wr rd) g log v ∧ same v v' := by
  obtain ⟨g1, n1, M1, wr, rd, e1, e2, -, e4⟩ := remap_ok (μ := μ) h p
  obtain ⟨g', n', M', ρ, δ, f1, f2, f3, f4⟩ := reduce_ok (μ := μ) e2
  have W0 : World α μ := ⟨fun _ a _ => a, fun _ a => a, fun _ => none, fun _ _ _ _ _ => 0, fun _ _ => false, 1⟩
  have S := e4 W0
  have T := f4 W0
  have hmem : ∀ q ∈ g.ids, ¬ Postal g q → q ∈ g1.ids := fun q hq hp => (S.ids q (h.below q hq)).2 ⟨hq, hp⟩
  have hkind : ∀ q ∈ g.ids, g1.kind q = g.kind q := fun q hq => S.kind q (h.below q hq)
  refine ⟨g1, n1, g', n', wr, rd, ρ, e1, f1, f3, ?_, ?_, ?_⟩
  · intro q hq hp hl
    have := T.keep q (hmem q hq hp) (by rw [hkind q hq]; exact hl)
    rwa [hkind q hq] at this
  · intro s r m hs hr ks kr
    obtain ⟨y, y1, y2, w1, w2, -, r1, r2⟩ := S.post s r m hs hr ks kr
    have a := T.keep y y1 (by rw [y2]; rfl)
    have b := T.keep _ w1 (by rw [w2]; rfl)
    have c := T.keep _ r1 (by rw [r2]; rfl)
    exact ⟨y, a.1, by rw [a.2.1, y2], b.1, by rw [b.2.1, w2], c.1, by rw [c.2.1, r2]⟩
  · intro W log hlog
    have hl : ∀ t, ∀ e ∈ log t, e.src < n := fun t e he => h.below _ (hlog t e he)
    obtain ⟨a1, a2⟩ := (e4 W).signals log hl
    obtain ⟨b1, b2⟩ := (f4 W).signals log fun t e he => by have := hl t e he; have := S.le; omega
    have A : ∀ v v1 v', Alike g g1 log v v1 → Agree g1 g' ρ log v1 v' → ∀ q ∈ g.ids, ¬ Postal g q → (g.kind q).lang = false →
          (∀ j t, v' q j t = v q j t) ∧ ∀ i t, inSum v' (g'.ins q i) t = inSum v (g.ins q i) t ∧
            received (rename ρ log t) (g'.ins q i) = received (log t) (g.ins q i) := by
      intro v v1 v' x y q hq hp hlq
      obtain ⟨x1, x2⟩ := x q hq (hmem q hq hp)
      obtain ⟨y1, y2⟩ := y q (hmem q hq hp) (by rw [hkind q hq]; exact hlq)
      exact ⟨fun j t => by rw [y1, x1], fun i t => ⟨by rw [(y2 i t).1, (x2 i t).1], by rw [(y2 i t).2, (x2 i t).2]⟩⟩
    constructor
    · intro v hv
      obtain ⟨v1, h1, h2⟩ := a1 v hv
      obtain ⟨v', h3, h4⟩ := b1 v1 h1
      exact ⟨v', h3, A _ _ _ h2 h4⟩
    · intro v' hv
      obtain ⟨v1, h1, h2⟩ := b2 v' hv
      obtain ⟨v, h3, h4⟩ := a2 v1 h1
      exact ⟨v, h3, A _ _ _ h4 h2⟩

/-! ### the conditions can be met -/

namespace MailExample

/-- `[osc~]` (0) into `[throw~ a]` (2), `[osc~]` (1) into `[throw~ a]` (3); `[catch~ a]` (4) into `[dac~]` (5) and `[s~ b]` (8);
`[catch~ a]` (6) into `[*~ 2]` (7) into `[dac~]`; `[r~ b]` (9) into `[dac~]`; `[throw~ a]` (10) without connections -/
def kind : Nat → Kind Rat
  | 2 => .send "a"
  | 3 => .send "a"
  | 4 => .receive "a"
  | 6 => .receive "a"
  | 7 => .binop "*" 2
  | 8 => .send "b"
  | 9 => .receive "b"
  | 10 => .send "a"
  | _ => .other ""

/-- its connections -/
def conns : List Conn := [⟨0, 0, 2, 0, .f⟩, ⟨1, 0, 3, 0, .f⟩, ⟨4, 0, 5, 0, .f⟩, ⟨4, 0, 8, 0, .f⟩, ⟨6, 0, 7, 0, .f⟩, ⟨7, 0, 5, 1, .f⟩,
  ⟨9, 0, 5, 0, .f⟩]

/-- the patch -/
def patch : Graph Rat := ofConns (List.range 11) kind conns

theorem ready : Ready patch 11 ↑conns where
  wired := ofConns_wired _ _ _
  nodup := List.nodup_range
  below o ho := List.mem_range.1 ho
  ends := by
    have : ∀ c ∈ conns, c.src ∈ List.range 11 ∧ c.dst ∈ List.range 11 := by decide
    exact this
  loop := by
    have : ∀ c ∈ conns, c.src ≠ c.dst := by decide
    exact this
  floats := by
    have : ∀ c ∈ conns, c.ty ≠ .i := by decide
    exact this
  rank := ⟨fun p => if p = 5 then 11 else p, by
    have : ∀ c ∈ conns, c.ty = .f → (if c.src = 5 then (11 : Int) else c.src) < (if c.dst = 5 then (11 : Int) else c.dst) := by decide
    exact fun c hc => ⟨this c hc, (fun h => absurd h (by simp)), fun _ h => absurd h (by simp)⟩⟩
  typed _ h := absurd h (by simp)
  reads o ho y hy := by
    have : ∀ o y, kind o ≠ .varRead y := by intro o y; unfold kind; split <;> simp
    exact absurd hy (this o y)
  lets o ho hl := by
    have h1 : ∀ o < 11, ∀ c ∈ conns, (kind o).lang → c.dst = o → c.inlet < (kind o).numInlets := by decide
    have h2 : ∀ o < 11, ∀ c ∈ conns, (kind o).lang → c.src = o → c.outlet = 0 := by decide
    exact ⟨fun c hc h => h1 o (List.mem_range.1 ho) c hc hl h, fun c hc h => h2 o (List.mem_range.1 ho) c hc hl h⟩
  fits o ho := by
    have ho' := List.mem_range.1 ho
    have f : ∀ o < 11, o = 7 ∨ (kind o).lang = false := by decide
    rcases f o ho' with rfl | h
    · have n1 : (binName "*" "~f").isSome = true := by decide +kernel
      exact .inr (.inl ⟨by decide, n1, .inl ⟨by decide, .inr (.inr ⟨by decide, by decide⟩)⟩⟩)
    · unfold Fits
      have hk : patch.kind o = kind o := rfl
      cases hk' : patch.kind o with
      | binop op k => rw [← hk, hk'] at h; simp [Kind.lang] at h
      | unop op => rw [← hk, hk'] at h; simp [Kind.lang] at h
      | var op => rw [← hk, hk'] at h; simp [Kind.lang] at h
      | _ => trivial

theorem posted : Posted patch ↑conns where
  send s hs m hm := by
    have h : ∀ o < 11, (kind o).letter.isSome → ∀ c ∈ conns, o ∈ [2, 3, 8, 10] → c.src ≠ o ∧ (c.dst = o → c.inlet = 0) := by decide
    have h0 : s ∈ [2, 3, 8, 10] := by
      have hs := List.mem_range.1 hs
      have hm : kind s = .send m := hm
      revert hm; unfold kind; split <;> simp
    exact fun c hc => h s (List.mem_range.1 hs) (by have hm : kind s = .send m := hm; rw [hm]; rfl) c hc h0
  receive s hs m hm := by
    have h : ∀ c ∈ conns, ∀ o ∈ [4, 6, 9], c.dst ≠ o ∧ (c.src = o → c.outlet = 0) := by decide
    have h0 : s ∈ [4, 6, 9] := by
      have hm : kind s = .receive m := hm
      revert hm; unfold kind; split <;> simp
    exact fun c hc => h c hc s h0
  sendTy _ _ s _ _ c hc _ := by
    have h : ∀ c ∈ conns, c.ty = .f := by decide
    exact h c hc
  receiveTy _ _ s _ _ c hc _ := by
    have h : ∀ c ∈ conns, c.ty = .f := by decide
    exact h c hc
  write w _ y hy := by
    have : ∀ o y, kind o ≠ .varWrite y := by intro o y; unfold kind; split <;> simp
    exact absurd hy (this w y)

/-- what becomes of it: `[dac~]` gets the sum (15) of the reads 16, 17 and the read (23) of `b`; the right inlet gets the product -/
theorem result : (patch.remap 11).map (fun r => (r.1.ids, (r.1.ins 5 0).map (·.src), (r.1.ins 15 0).map (·.src), (r.1.ins 15 1).map (·.src),
    (r.1.ins 22 0).map (·.src))) = some ([0, 1, 5, 7, 10, 11, 12, 13, 14, 15, 16, 17, 18, 19, 20, 21, 22, 23], [15, 23], [16], [17], [15]) := by
  decide +kernel

end MailExample

/-! ### where it fails -/

/-- `[r~ x]` (0) and `[osc~]` (1) into `[+~]` (2) into `[dac~]` (3); nobody sends to `x` -/
def orphan : Graph Rat := ofConns [0, 1, 2, 3] (fun p => if p = 0 then .receive "x" else if p = 2 then .binop "+" 0 else .other "")
  [⟨0, 0, 2, 0, .f⟩, ⟨1, 0, 2, 1, .f⟩, ⟨2, 0, 3, 0, .f⟩]

/-- in the patch `[dac~]` gets the oscillator; in the compiled graph, where the reduction of `receive` removes the object
(HLangReceive.py:46-49), nothing is connected to it -/
theorem orphan_mutes (W : World Rat μ) (log : Nat → List (Sent μ)) :
    (∀ v, Solves W orphan log v → ∀ t, inSum v (orphan.ins 3 0) t = v 1 0 t) ∧
    orphan.remap 4 = some (orphan, 4) ∧
    ((orphan.removeObj 0).bind fun g => g.reduceObj 4 2).map (fun r => (r.1.ids, r.1.ins 3 0)) = some ([1, 3], []) := by
  refine ⟨fun v hv t => ?_, rfl, by decide +kernel⟩
  have h1 : orphan.ins 3 0 = [⟨2, 0, 3, 0, .f⟩] := by decide
  have h2 : orphan.ins 2 0 = [⟨0, 0, 2, 0, .f⟩] := by decide
  have h3 : orphan.ins 2 1 = [⟨1, 0, 2, 1, .f⟩] := by decide
  have o2 := hv 2 (by decide)
  have o0 := hv 0 (by decide)
  have k2 : orphan.kind 2 = .binop "+" 0 := rfl
  have k0 : orphan.kind 0 = .receive "x" := rfl
  unfold Obeys at o0 o2
  rw [k2] at o2
  rw [k0] at o0
  simp only [h2, h3] at o2
  have o2 := o2 (.inl rfl) t
  have o0 := o0 t
  have hs : orphan.senders "x" = [] := by decide
  rw [hs] at o0
  rw [operand, if_pos (by decide), operand, if_pos (by decide), inSum_single rfl, inSum_single rfl] at o2
  rw [h1, inSum_single rfl]
  show v 2 0 t = _
  rw [o2, World.op, if_pos rfl]
  show v 0 0 t + _ = _
  rw [o0]
  simp

end Verif.Reduce
