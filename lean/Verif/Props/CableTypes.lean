import Verif.CableTypes
import Mathlib.Tactic.ByContra
import Mathlib.Tactic.Tauto
/-!
# C81: every cable ends up as a cable of messages or of signals
-/
namespace Verif.CableTypes
variable {g : Gr} {ty : Nat → Ty}

/-- the lists of cables agree with the cables -/
structure WF (g : Gr) : Prop where
  src : ∀ o, ∀ k ∈ g.outs o, g.src k = o
  ins : ∀ o k, k ∈ g.ins o ↔ k ∈ g.outs (g.src k) ∧ g.dst k = o
  dst : ∀ o, ∀ k ∈ g.outs o, g.dst k ∈ g.objs ∧ o ∈ g.objs

/-- what an object that can do both sends if `l` arrives at its left inlet: a signal if some signal arrives, messages otherwise -/
def Sends (l : List Ty) (t : Ty) : Prop :=
  .m ∉ l ∧ ((t = .f ∧ .f ∈ l ∧ .i ∉ l) ∨ (t = .i ∧ .i ∈ l ∧ .f ∉ l) ∨ (t = .c ∧ .f ∉ l ∧ .i ∉ l))

/-- the types at the left inlet -/
def Gr.left (g : Gr) (τ : Nat → Ty) (o : Nat) : List Ty := ((g.ins o).filter fun k => g.inlet k = 0).map τ

/-- `τ` is right for the cable `k` of `o`: a given type stays; an open cable has the type of its outlet, or follows the left inlet -/
def Right (g : Gr) (ty τ : Nat → Ty) (o k : Nat) : Prop :=
  if ty k ≠ .m then τ k = ty k
  else if g.decl o (g.outlet k) ≠ .m then τ k = g.decl o (g.outlet k)
  else Sends (g.left τ o) (τ k)

theorem Sends.ne {l : List Ty} {t : Ty} (h : Sends l t) : t ≠ .m := by
  obtain ⟨-, ⟨rfl, -⟩ | ⟨rfl, -⟩ | ⟨rfl, -⟩⟩ := h <;> simp

theorem Right.ne {τ : Nat → Ty} {o k : Nat} (h : Right g ty τ o k) : τ k ≠ .m := by
  unfold Right at h
  split at h
  · rwa [h]
  · split at h
    · rwa [h]
    · exact h.ne

/-- the rule of the code says the same, unless the type is left open -/
theorem rule_sends {l : List Ty} {t : Ty} (ht : t ≠ .m) (h : rule l = some t) : Sends l t := by
  unfold rule at h
  split at h
  · next h0 => cases h; subst h0; simp [Sends]
  · next h0 =>
    obtain ⟨a, ha⟩ := List.exists_mem_of_ne_nil _ h0
    split_ifs at h with h1 h2 h3 h4 h5 h6 <;> cases h
    · have : ∀ x, x ≠ .c → x ∉ l := fun x hx hm => hx (h1 x hm)
      simp [Sends, this]
    · have : ∀ x, x ≠ .f → x ∉ l := fun x hx hm => hx (h2 x hm)
      simp [Sends, this, h2 a ha ▸ ha]
    · have : ∀ x, x ≠ .i → x ∉ l := fun x hx hm => hx (h3 x hm)
      simp [Sends, this, h3 a ha ▸ ha]
    · exact absurd rfl ht
    · refine ⟨fun hm => by simpa using h5 _ hm, .inl ⟨rfl, ?_, fun hm => by simpa using h5 _ hm⟩⟩
      by_contra hf
      exact h1 fun x hx => (h5 x hx).resolve_right fun e => hf (e ▸ hx)
    · refine ⟨fun hm => by simpa using h6 _ hm, .inr (.inl ⟨rfl, ?_, fun hm => by simpa using h6 _ hm⟩)⟩
      by_contra hf
      exact h1 fun x hx => (h6 x hx).resolve_right fun e => hf (e ▸ hx)

/-- and answers whenever it can -/
theorem rule_answers {l : List Ty} (hm : .m ∉ l) (h : ¬ (.f ∈ l ∧ .i ∈ l)) : ∃ t, t ≠ .m ∧ rule l = some t := by
  unfold rule
  by_cases h0 : l = []
  · exact ⟨.c, by simp, if_pos h0⟩
  rw [if_neg h0]
  split_ifs with h1 h2 h3 h4 h5 h6
  · exact ⟨.c, by simp, rfl⟩
  · exact ⟨.f, by simp, rfl⟩
  · exact ⟨.i, by simp, rfl⟩
  · obtain ⟨a, ha⟩ := List.exists_mem_of_ne_nil _ h0
    exact absurd (h4 a ha ▸ ha) hm
  · exact ⟨.f, by simp, rfl⟩
  · exact ⟨.i, by simp, rfl⟩
  · exfalso
    push Not at h5 h6
    obtain ⟨a, ha, a1, a2⟩ := h5
    obtain ⟨b, hb, b1, b2⟩ := h6
    refine h ⟨?_, ?_⟩
    · cases b <;> simp_all
    · cases a <;> simp_all

/-! ## The pass only fills in open types -/

/-- what may happen to a state -/
structure Mono (s s' : St) : Prop where
  ty : ∀ k, s.ty k ≠ .m → s'.ty k = s.ty k
  seen : ∀ o ∈ s.seen, o ∈ s'.seen
  err : s.err = true → s'.err = true

theorem Mono.refl (s : St) : Mono s s := ⟨fun _ _ => rfl, fun _ h => h, fun h => h⟩

theorem Mono.trans {s s' s'' : St} (h : Mono s s') (h' : Mono s' s'') : Mono s s'' :=
  ⟨fun k hk => (h'.ty k (by rwa [h.ty k hk])).trans (h.ty k hk), fun o ho => h'.seen o (h.seen o ho), fun e => h'.err (h.err e)⟩

theorem one_spec (o k : Nat) (s : St) :
    Mono s (g.one o k s) ∧ (g.one o k s).seen = s.seen ∧ ((g.one o k s).ty k ≠ .m ∨ (g.one o k s).err = true) := by
  unfold Gr.one
  split
  · next hk =>
    split
    · exact ⟨⟨fun _ _ => rfl, fun _ h => h, fun _ => rfl⟩, rfl, .inr rfl⟩
    · exact ⟨⟨fun _ _ => rfl, fun _ h => h, fun _ => rfl⟩, rfl, .inr rfl⟩
    · next t ht _ =>
      refine ⟨⟨fun x hx => ?_, fun _ h => h, fun h => h⟩, rfl, .inl (by simpa using ht)⟩
      have : x ≠ k := fun e => hx (e ▸ hk)
      simp [this]
  · next hk => exact ⟨.refl s, rfl, .inl hk⟩

/-- the types so far: as given, or right -/
def Sofar (g : Gr) (ty : Nat → Ty) (s : St) : Prop :=
  ∀ o, ∀ k ∈ g.outs o, s.ty k = ty k ∨ (ty k = .m ∧ Right g ty s.ty o k)

theorem left_mono {s s' : St} (h : Mono s s') {o : Nat} (hm : .m ∉ g.left s.ty o) : g.left s'.ty o = g.left s.ty o := by
  unfold Gr.left at *
  apply List.map_congr_left
  intro k hk
  exact h.ty k fun e => hm (List.mem_map.2 ⟨k, hk, e⟩)

theorem Right.mono {s s' : St} (h : Mono s s') {o k : Nat} (hr : Right g ty s.ty o k) : Right g ty s'.ty o k := by
  have e := h.ty k hr.ne
  unfold Right at *
  rw [e]
  split at hr <;> [skip; split at hr]
  · rw [if_pos ‹_›, hr]
  · rw [if_neg ‹_›, if_pos ‹_›, hr]
  · rw [if_neg ‹_›, if_neg ‹_›, left_mono h hr.1]
    exact hr

theorem Sofar.one (hg : WF g) {s : St} (h : Sofar g ty s) {o k : Nat} (hk : k ∈ g.outs o) : Sofar g ty (g.one o k s) := by
  intro p x hx
  have hm := (one_spec (g := g) o k s).1
  rcases h p x hx with h1 | ⟨h1, h2⟩
  · by_cases hxm : ty x = .m
    · by_cases hxk : x = k
      · subst hxk
        obtain rfl : p = o := (hg.src p x hx).symm.trans (hg.src o x hk)
        unfold Gr.one
        rw [if_pos (h1.trans hxm)]
        split
        · exact .inl h1
        · exact .inl h1
        · next t ht hr =>
          right
          refine ⟨hxm, ?_⟩
          have hne : t ≠ .m := fun e => ht e
          unfold Right
          rw [if_neg (by simpa using hxm)]
          unfold Gr.resolved at hr
          split at hr
          · next hd =>
            rw [if_neg (by simpa using hd)]
            have hs := rule_sends hne hr
            have e : g.left (fun y => if y = x then t else s.ty y) p = g.left s.ty p := by
              unfold Gr.left
              apply List.map_congr_left
              intro y hy
              have : y ≠ x := by
                rintro rfl
                exact hs.1 (List.mem_map.2 ⟨y, hy, h1.trans hxm⟩)
              simp [this]
            simp only [if_true] 
            rw [e]
            exact hs
          · next hd =>
            rw [if_pos hd]
            simpa using (Option.some.inj hr).symm
      · left
        rw [← h1]
        unfold Gr.one
        split
        · split <;> simp [hxk]
        · rfl
    · exact .inl ((hm.ty x (by rwa [h1])).trans h1)
  · exact .inr ⟨h1, h2.mono hm⟩

/-- the objects not yet dealt with -/
def Gr.left' (g : Gr) (s : St) : Nat := (g.objs.filter fun o => o ∉ s.seen).length

theorem unseen_le {s s' : St} (h : ∀ o ∈ s.seen, o ∈ s'.seen) : g.left' s' ≤ g.left' s := by
  unfold Gr.left'
  apply List.Sublist.length_le
  apply List.monotone_filter_right
  intro o ho
  simp only [decide_eq_true_eq] at *
  exact fun e => ho (h o e)

theorem unseen_lt {o : Nat} {s : St} (ho : o ∈ g.objs) (hs : o ∉ s.seen) : g.left' { s with seen := o :: s.seen } < g.left' s := by
  unfold Gr.left'
  simp only
  have : (g.objs.filter fun p => p ∉ o :: s.seen) = (g.objs.filter fun p => p ∉ s.seen).filter fun p => p ≠ o := by
    rw [List.filter_filter]
    apply List.filter_congr
    intro p _
    simp [not_or]
  rw [this]
  apply List.length_filter_lt_length_iff_exists.2
  exact ⟨o, by simp [ho, hs], by simp⟩

/-- an object is finished -/
def Done (g : Gr) (s : St) (o : Nat) : Prop := ∀ k ∈ g.outs o, g.dst k ∈ s.seen ∧ (s.ty k ≠ .m ∨ s.err = true)

theorem Done.mono {s s' : St} (h : Mono s s') {o : Nat} (hd : Done g s o) : Done g s' o := fun k hk =>
  ⟨h.seen _ (hd k hk).1, (hd k hk).2.imp (fun e => by rwa [h.ty k e]) h.err⟩

/-- depth-first: afterwards the object and all that were newly met are finished -/
theorem visit_spec (hg : WF g) : ∀ n o (s : St), o ∈ g.objs → g.left' s ≤ n → Sofar g ty s →
    Mono s (g.visit n o s) ∧ o ∈ (g.visit n o s).seen ∧ Sofar g ty (g.visit n o s) ∧
      ∀ p ∈ (g.visit n o s).seen, p ∈ s.seen ∨ Done g (g.visit n o s) p
  | 0, o, s, ho, hn, hs => by
    have : o ∈ s.seen := by
      by_contra h
      have : o ∈ g.objs.filter fun o => o ∉ s.seen := by simp [ho, h]
      unfold Gr.left' at hn
      rw [List.length_eq_zero_iff.1 (Nat.le_zero.1 hn)] at this
      simp at this
    exact ⟨.refl s, this, hs, fun p hp => .inl hp⟩
  | n + 1, o, s, ho, hn, hs => by
    unfold Gr.visit
    split
    · next h => exact ⟨.refl s, h, hs, fun p hp => .inl hp⟩
    · next h =>
      have hn' : g.left' { s with seen := o :: s.seen } ≤ n := by have := unseen_lt ho h; omega
      have main : ∀ (l : List Nat) (s1 : St), (∀ k ∈ l, k ∈ g.outs o) → g.left' s1 ≤ n → Sofar g ty s1 →
          let s2 := l.foldl (fun s k => g.visit n (g.dst k) (g.one o k s)) s1
          Mono s1 s2 ∧ Sofar g ty s2 ∧ (∀ k ∈ l, g.dst k ∈ s2.seen ∧ (s2.ty k ≠ .m ∨ s2.err = true)) ∧
            ∀ p ∈ s2.seen, p ∈ s1.seen ∨ Done g s2 p := by
        intro l
        induction l with
        | nil => exact fun s1 _ _ hs1 => ⟨.refl s1, hs1, by simp, fun p hp => .inl hp⟩
        | cons k l ih =>
          intro s1 hl h1 hs1
          obtain ⟨m1, m2, m3⟩ := one_spec (g := g) o k s1
          have hk := hl k (by simp)
          have hu : g.left' (g.one o k s1) ≤ n := (unseen_le m1.seen).trans h1
          obtain ⟨v1, v2, v3, v4⟩ := visit_spec hg n (g.dst k) (g.one o k s1) (hg.dst o k hk).1 hu (hs1.one hg hk)
          obtain ⟨w1, w2, w3, w4⟩ := ih (g.visit n (g.dst k) (g.one o k s1)) (fun x hx => hl x (by simp [hx])) ((unseen_le v1.seen).trans hu) v3
          simp only [List.foldl_cons]
          refine ⟨m1.trans (v1.trans w1), w2, ?_, ?_⟩
          · intro x hx
            rcases List.mem_cons.1 hx with rfl | hx
            · refine ⟨w1.seen _ v2, ?_⟩
              exact m3.imp (fun e => by rwa [w1.ty x (by rwa [v1.ty x e]), v1.ty x e]) fun e => w1.err (v1.err e)
            · exact w3 x hx
          · intro p hp
            rcases w4 p hp with h5 | h5
            · rcases v4 p h5 with h6 | h6
              · exact .inl (m2 ▸ h6)
              · exact .inr (h6.mono w1)
            · exact .inr h5
      obtain ⟨a1, a2, a3, a4⟩ := main (g.outs o) { s with seen := o :: s.seen } (fun _ h => h) hn' hs
      refine ⟨⟨a1.ty, fun p hp => a1.seen p (by simp [hp]), a1.err⟩, a1.seen o (by simp), a2, ?_⟩
      intro p hp
      rcases a4 p hp with h5 | h5
      · rcases List.mem_cons.1 h5 with rfl | h5
        · exact .inr a3
        · exact .inl h5
      · exact .inr h5

theorem run_spec (hg : WF g) : Sofar g ty (g.run ty) ∧ (∀ o ∈ g.objs, g.root o = true → o ∈ (g.run ty).seen) ∧
    (∀ o ∈ (g.run ty).seen, Done g (g.run ty) o) ∧ Mono ⟨ty, [], false⟩ (g.run ty) := by
  unfold Gr.run
  have main : ∀ (l : List Nat) (s : St), (∀ o ∈ l, o ∈ g.objs) → Sofar g ty s → (∀ o ∈ s.seen, Done g s o) →
      let s' := l.foldl (fun s o => g.visit g.objs.length o s) s
      Mono s s' ∧ Sofar g ty s' ∧ (∀ o ∈ l, o ∈ s'.seen) ∧ ∀ o ∈ s'.seen, Done g s' o := by
    intro l
    induction l with
    | nil => exact fun s _ h1 h2 => ⟨.refl s, h1, by simp, h2⟩
    | cons o l ih =>
      intro s hl h1 h2
      obtain ⟨v1, v2, v3, v4⟩ := visit_spec (ty := ty) hg g.objs.length o s (hl o (by simp)) (List.length_filter_le _ _) h1
      obtain ⟨w1, w2, w3, w4⟩ := ih (g.visit g.objs.length o s) (fun x hx => hl x (by simp [hx])) v3
        fun p hp => (v4 p hp).elim (fun h => (h2 p h).mono v1) fun h => h
      refine ⟨v1.trans w1, w2, ?_, w4⟩
      intro p hp
      rcases List.mem_cons.1 hp with rfl | hp
      · exact w1.seen _ v2
      · exact w3 p hp
  obtain ⟨a1, a2, a3, a4⟩ := main (g.objs.filter g.root) ⟨ty, [], false⟩ (fun o ho => (List.mem_filter.1 ho).1) (fun _ _ _ => .inl rfl) (by simp)
  exact ⟨a2, fun o ho hr => a3 o (List.mem_filter.2 ⟨ho, hr⟩), a4, a1⟩

/-- the objects that can be reached from those without incoming cables -/
inductive Reached (g : Gr) : Nat → Prop
  | root {o : Nat} : o ∈ g.objs → g.root o = true → Reached g o
  | step {o k : Nat} : Reached g o → k ∈ g.outs o → Reached g (g.dst k)

/-- **C81** if the pass reports no error, then every cable behind a source has a definite type, and the right one -/
theorem resolved_right (hg : WF g) (he : (g.run ty).err = false) {o k : Nat} (ho : Reached g o) (hk : k ∈ g.outs o) :
    (g.run ty).ty k ≠ .m ∧ Right g ty (g.run ty).ty o k := by
  obtain ⟨h1, h2, h3, h4⟩ := run_spec (ty := ty) hg
  have hseen : o ∈ (g.run ty).seen := by
    clear hk
    induction ho with
    | root a b => exact h2 _ a b
    | step _ hk ih => exact (h3 _ ih _ hk).1
  have hne : (g.run ty).ty k ≠ .m := ((h3 o hseen k hk).2).resolve_right (by simp [he])
  refine ⟨hne, ?_⟩
  rcases h1 o k hk with h5 | h5
  · unfold Right
    rw [if_pos (by rwa [← h5]), h5]
  · exact h5.2

/-- without loops everything is behind a source -/
theorem reached_all (hg : WF g) (rank : Nat → Nat) (hr : ∀ o, ∀ k ∈ g.outs o, rank o < rank (g.dst k)) (o : Nat) (ho : o ∈ g.objs) : Reached g o := by
  induction hn : rank o using Nat.strongRecOn generalizing o with
  | ind n ih =>
    by_cases h : g.root o = true
    · exact .root ho h
    · have : g.ins o ≠ [] := by simpa [Gr.root] using h
      obtain ⟨k, hk⟩ := List.exists_mem_of_ne_nil _ this
      obtain ⟨h1, h2⟩ := (hg.ins o k).1 hk
      have := hr _ k h1
      rw [h2] at this
      exact h2 ▸ Reached.step (ih (rank (g.src k)) (by omega) _ (hg.dst _ k h1).2 rfl) h1

/-- and there is only one right choice of types -/
theorem right_unique (hg : WF g) (rank : Nat → Nat) (hr : ∀ o, ∀ k ∈ g.outs o, rank o < rank (g.dst k)) {τ σ : Nat → Ty}
    (hτ : ∀ o, ∀ k ∈ g.outs o, Right g ty τ o k) (hσ : ∀ o, ∀ k ∈ g.outs o, Right g ty σ o k) (o : Nat) :
    ∀ k ∈ g.outs o, τ k = σ k := by
  induction hn : rank o using Nat.strongRecOn generalizing o with
  | ind n ih =>
    intro k hk
    have h1 := hτ o k hk
    have h2 := hσ o k hk
    have el : g.left τ o = g.left σ o := by
      unfold Gr.left
      apply List.map_congr_left
      intro x hx
      obtain ⟨a, b⟩ := (hg.ins o x).1 (List.mem_filter.1 hx).1
      have := hr _ x a
      rw [b] at this
      exact ih (rank (g.src x)) (by omega) _ rfl x a
    unfold Right at h1 h2
    split at h1 <;> [skip; split at h1]
    · rw [if_pos ‹_›] at h2
      rw [h1, h2]
    · rw [if_neg ‹_›, if_pos ‹_›] at h2
      rw [h1, h2]
    · rw [if_neg ‹_›, if_neg ‹_›, ← el] at h2
      obtain ⟨-, h1⟩ := h1
      obtain ⟨-, h2⟩ := h2
      rcases h1 with ⟨a, b, c⟩ | ⟨a, b, c⟩ | ⟨a, b, c⟩ <;> rcases h2 with ⟨a', b', c'⟩ | ⟨a', b', c'⟩ | ⟨a', b', c'⟩ <;> simp_all

/-! ## When there is no error -/

/-- the object `o` is easy: its outlets have types of their own or are not open; or the cables to its left inlet have types from the
start, not both kinds of signals; or only one cable comes to it at all -/
def Easy (g : Gr) (ty : Nat → Ty) (o : Nat) : Prop :=
  ∀ k ∈ g.outs o, ty k = .m → g.decl o (g.outlet k) = .m →
    (.m ∉ g.left ty o ∧ ¬ (.f ∈ g.left ty o ∧ .i ∈ g.left ty o)) ∨ ∃ x, g.ins o = [x]

theorem visit_mono : ∀ n o (s : St), Mono s (g.visit n o s)
  | 0, _, s => .refl s
  | n + 1, o, s => by
    unfold Gr.visit
    split
    · exact .refl s
    · have main : ∀ (l : List Nat) (s1 : St), Mono s1 (l.foldl (fun s k => g.visit n (g.dst k) (g.one o k s)) s1) := by
        intro l
        induction l with
        | nil => exact fun s1 => .refl s1
        | cons k l ih => exact fun s1 => ((one_spec o k s1).1.trans (visit_mono n _ _)).trans (ih _)
      have h := main (g.outs o) { s with seen := o :: s.seen }
      exact ⟨h.ty, fun p hp => h.seen p (by simp [hp]), h.err⟩

theorem one_easy {s : St} {o k : Nat} (hk : k ∈ g.outs o) (h0 : Mono ⟨ty, [], false⟩ s) (he : Easy g ty o)
    (hr : ∀ x, g.ins o = [x] → s.ty x ≠ .m) (h : s.err = false) : (g.one o k s).err = false := by
  unfold Gr.one
  split
  · next hm =>
    have hk0 : ty k = .m := by
      by_contra hne
      exact hne ((h0.ty k hne).symm.trans hm)
    suffices hh : ∃ t, t ≠ .m ∧ g.resolved s.ty o (g.outlet k) = some t by
      obtain ⟨t, ht, e⟩ := hh
      rw [e]
      cases t <;> simp_all
    unfold Gr.resolved
    split
    · next hd =>
      rcases he k hk hk0 hd with ⟨h1, h2⟩ | ⟨x, hx⟩
      · have e : g.left s.ty o = g.left ty o := left_mono h0 h1
        have := rule_answers h1 h2
        rw [← e] at this
        exact this
      · rw [hx]
        apply rule_answers
        · intro hin
          obtain ⟨y, hy, e⟩ := List.mem_map.1 hin
          have : y = x := by simpa using (List.mem_filter.1 hy).1
          exact hr x hx (this ▸ e)
        · by_cases h0 : g.inlet x = 0 <;> simp [h0]
          intro e e'
          rw [← e] at e'
          cases e'
    · next hd => exact ⟨_, hd, rfl⟩
  · exact h

theorem visit_easy (hg : WF g) (he : ∀ o ∈ g.objs, Easy g ty o) : ∀ n o (s : St), o ∈ g.objs → Mono ⟨ty, [], false⟩ s →
    (∀ x, g.ins o = [x] → s.ty x ≠ .m) → s.err = false → (g.visit n o s).err = false
  | 0, _, _, _, _, _, h => h
  | n + 1, o, s, ho, h0, hr, h => by
    unfold Gr.visit
    split
    · exact h
    · have main : ∀ (l : List Nat) (s1 : St), (∀ k ∈ l, k ∈ g.outs o) → Mono ⟨ty, [], false⟩ s1 → (∀ x, g.ins o = [x] → s1.ty x ≠ .m) →
          s1.err = false → (l.foldl (fun s k => g.visit n (g.dst k) (g.one o k s)) s1).err = false := by
        intro l
        induction l with
        | nil => exact fun s1 _ _ _ h => h
        | cons k l ih =>
          intro s1 hl h1 h2 h3
          have hk := hl k (by simp)
          obtain ⟨m1, m2, m3⟩ := one_spec (g := g) o k s1
          have e1 := one_easy hk h1 (he o ho) h2 h3
          have e2 : (g.one o k s1).ty k ≠ .m := m3.resolve_right (by simp [e1])
          have hv := visit_mono (g := g) n (g.dst k) (g.one o k s1)
          rw [List.foldl_cons]
          apply ih _ (fun x hx => hl x (by simp [hx])) (h1.trans (m1.trans hv))
          · intro x hx
            have a := h2 x hx
            have b : (g.one o k s1).ty x ≠ .m := by rwa [m1.ty x a]
            rwa [hv.ty x b]
          · apply visit_easy hg he n _ _ (hg.dst o k hk).1 (h1.trans m1) _ e1
            intro x hx
            have : k ∈ g.ins (g.dst k) := (hg.ins _ k).2 ⟨by rwa [hg.src o k hk], rfl⟩
            rw [hx, List.mem_singleton] at this
            rwa [← this]
      exact main _ { s with seen := o :: s.seen } (fun _ h => h) ⟨h0.ty, by simp, h0.err⟩ hr h

/-- **C81** if all the objects are easy, there is no error -/
theorem easy_resolves (hg : WF g) (he : ∀ o ∈ g.objs, Easy g ty o) : (g.run ty).err = false := by
  unfold Gr.run
  have main : ∀ (l : List Nat) (s : St), (∀ o ∈ l, o ∈ g.objs ∧ g.root o = true) → Mono ⟨ty, [], false⟩ s → s.err = false →
      (l.foldl (fun s o => g.visit g.objs.length o s) s).err = false := by
    intro l
    induction l with
    | nil => exact fun s _ _ h => h
    | cons o l ih =>
      intro s hl h1 h2
      obtain ⟨a, b⟩ := hl o (by simp)
      apply ih _ (fun x hx => hl x (by simp [hx])) (h1.trans (visit_mono _ _ _))
      apply visit_easy hg he _ _ _ a h1 _ h2
      intro x hx
      simp [Gr.root, hx] at b
  exact main _ _ (fun o ho => ⟨(List.mem_filter.1 ho).1, (List.mem_filter.1 ho).2⟩) (.refl _) rfl

/-! ## Examples -/

/-- cables from a list: source, outlet, destination, inlet -/
def ofList (n : Nat) (l : List (Nat × Nat × Nat × Nat)) (decl : Nat → Nat → Ty) : Gr where
  objs := List.range n
  src k := (l[k]?.getD (0, 0, 0, 0)).1
  outlet k := (l[k]?.getD (0, 0, 0, 0)).2.1
  dst k := (l[k]?.getD (0, 0, 0, 0)).2.2.1
  inlet k := (l[k]?.getD (0, 0, 0, 0)).2.2.2
  outs o := (List.range l.length).filter fun k => (l[k]?.getD (0, 0, 0, 0)).1 = o
  ins o := (List.range l.length).filter fun k => (l[k]?.getD (0, 0, 0, 0)).2.2.1 = o
  decl := decl

theorem ofList_wf (n : Nat) (l : List (Nat × Nat × Nat × Nat)) (decl : Nat → Nat → Ty) (h : ∀ c ∈ l, c.1 < n ∧ c.2.2.1 < n) : WF (ofList n l decl) where
  src o k hk := of_decide_eq_true (List.mem_filter.1 hk).2
  ins o k := by simp [ofList]
  dst o k hk := by
    obtain ⟨h1, h2⟩ := List.mem_filter.1 hk
    have h3 : k < l.length := List.mem_range.1 h1
    have h4 := h l[k] (List.getElem_mem h3)
    simp [ofList, h3] at h2 ⊢
    exact ⟨h4.2, h2 ▸ h4.1⟩

/-- a signal object (0), then two operators that can do both (1, 2), and something behind them -/
def chain : Gr := ofList 4 [(0, 0, 1, 0), (1, 0, 2, 0), (2, 0, 3, 0)] fun o _ => if o = 0 then .f else .m

/-- it resolves to signals throughout -/
theorem chain_resolves : (chain.run fun _ => .m).err = false ∧ (List.range 3).map (chain.run fun _ => .m).ty = [.f, .f, .f] := by decide +kernel

example : WF chain ∧ ∀ o ∈ chain.objs, Easy chain (fun _ => .m) o := by
  refine ⟨ofList_wf _ _ _ (by decide), fun o ho => ?_⟩
  have : o < 4 := List.mem_range.1 ho
  unfold Easy
  rcases (by omega : o = 0 ∨ o = 1 ∨ o = 2 ∨ o = 3) with rfl | rfl | rfl | rfl
  · exact fun _ _ _ _ => .inl (by decide)
  · exact fun _ _ _ _ => .inr ⟨0, by decide⟩
  · exact fun _ _ _ _ => .inr ⟨1, by decide⟩
  · exact fun _ _ _ _ => .inr ⟨2, by decide⟩

/-- **C81** (finding) two operators that can do both, connected to one inlet of a third: an error, although messages is the right type of all
the cables -/
def diamond : Gr := ofList 4 [(0, 0, 2, 0), (1, 0, 2, 0), (2, 0, 3, 0)] fun _ _ => .m

theorem diamond_fails : (diamond.run fun _ => .m).err = true ∧ ∀ o, ∀ k ∈ diamond.outs o, Right diamond (fun _ => .m) (fun _ => .c) o k := by
  refine ⟨by decide +kernel, fun o k _ => ?_⟩
  simp only [Right, diamond, ofList, Sends, Gr.left, ne_eq, not_true_eq_false, if_false]
  simp

/-- **C81** (finding) whether a patch compiles depends on the order of its objects: here 0 has a type, 1 can do both, and both are connected
to 2, which can do both -/
def mixed (a b : Nat) : Gr := ofList 4 [(a, 0, 2, 0), (b, 0, 2, 0), (2, 0, 3, 0)] fun o _ => if o = a then .c else .m

theorem order_decides : ((mixed 0 1).run fun k => if k = 0 then .c else .m).err = true ∧
    ((mixed 1 0).run fun k => if k = 0 then .c else .m).err = false := by decide +kernel

/-- **C81** (finding) a loop that nothing leads to is never looked at: its cables stay open, without an error in this pass -/
theorem loop_stays_open : ((ofList 2 [(0, 0, 1, 0), (1, 0, 0, 0)] fun _ _ => .m).run fun _ => .m).err = false ∧
    ((ofList 2 [(0, 0, 1, 0), (1, 0, 0, 0)] fun _ _ => .m).run fun _ => .m).ty 0 = .m := by decide +kernel

/-- **C81** (finding) only the left inlet counts: messages at the left inlet of an operator and a signal at its right one (1 is a signal
object) make cables of messages behind it, although the operator is then a signal operator (`cf`, HLangBinop.py:195-209) -/
theorem right_inlet_ignored : ((ofList 4 [(0, 0, 2, 0), (1, 0, 2, 1), (2, 0, 3, 0)] fun _ _ => .m).run
    fun k => if k = 0 then .c else if k = 1 then .f else .m).ty 2 = .c := by decide +kernel

end Verif.CableTypes
