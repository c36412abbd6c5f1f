import Verif.Props.Control
import Mathlib.Tactic.ByContra
/-!
When the control compiler of C45 produces code.  `to_ir` fails (an unbounded recursion of `get_ir_on_message`, or an inlet that does
not exist) only if a connection leads to an inlet that is not there, or if one can go round in a circle through nothing but
subpatch borders and [trigger]s.
-/
namespace Verif.Control

/-- from where a message goes to where, without an object in between: borders of subpatches and [trigger]s -/
inductive Patch.Passes (p : Patch) : Dest → Dest → Prop
  | graph {o ins k i e} : p.kind o = .graph ins → ins[k]? = some i → e ∈ p.out i 0 → p.Passes (o, k) e
  | outlet {o g k j e} : p.kind o = .outlet g k → e ∈ p.out g k → p.Passes (o, j) e
  | seq {o l k e} : p.kind o = .seq l → e ∈ p.out o k → p.Passes (o, 0) e

/-- no connection leads to an inlet of a subpatch that the subpatch does not have -/
def Patch.Fits (p : Patch) : Prop := ∀ o k, ∀ e ∈ p.out o k, ∀ ins, p.kind e.1 = .graph ins → e.2 < ins.length

namespace Total

/-- the invariant: `g` bounds how far a message goes -/
structure Inv (p : Patch) (n : Nat) (g : Dest → Nat) : Prop where
  passes : ∀ d e, p.Passes d e → g e < g d
  fits : p.Fits
  fresh : ∀ d : Dest, n ≤ d.1 → g d = 0
  dest : ∀ o k, ∀ e ∈ p.out o k, e.1 < n
  ins : ∀ o ins, p.kind o = .graph ins → ∀ i ∈ ins, i < n
  lets : ∀ o a k, p.kind o = .outlet a k → a < n
  recv : ∀ nm, ∀ r ∈ p.recvs nm, r < n ∧ p.kind r = .recv

theorem onMessage_some {p : Patch} {n : Nat} {g : Dest → Nat} (h : Inv p n g) (f : Nat) (d : Dest) (hd : g d < f)
    (ha : ∀ ins, p.kind d.1 = .graph ins → d.2 < ins.length) : (p.onMessage f d).isSome = true := by
  induction f generalizing d with
  | zero => omega
  | succ f ih =>
    have concat : ∀ ds : List Dest, (∀ e ∈ ds, (p.onMessage f e).isSome = true) → (concatAll (p.onMessage f) ds).isSome = true := by
      intro ds hds
      induction ds with
      | nil => rfl
      | cons e ds ihd =>
        have h1 := hds e (List.mem_cons_self ..)
        have h2 := ihd fun e' he => hds e' (List.mem_cons_of_mem _ he)
        simp only [concatAll]
        cases hx : p.onMessage f e with
        | none => rw [hx] at h1; cases h1
        | some x => simpa using h2
    simp only [Patch.onMessage]
    cases hk : p.kind d.1 with
    | graph ins =>
      have hl := ha ins hk
      have hi : ins[d.2]? = some ins[d.2] := List.getElem?_eq_getElem hl
      simp only [hi]
      exact concat _ fun e he => ih e (by have := h.passes (d.1, d.2) e (.graph hk hi he); simp only [Prod.mk.eta] at this; omega) (h.fits _ _ e he)
    | outlet a k =>
      exact concat _ fun e he => ih e (by have := h.passes (d.1, d.2) e (.outlet hk he); simp only [Prod.mk.eta] at this; omega) (h.fits _ _ e he)
    | _ => rfl

theorem concat_some {p : Patch} {n : Nat} {g : Dest → Nat} (h : Inv p n g) {f : Nat} (ds : List Dest)
    (hd : ∀ e ∈ ds, g e < f ∧ ∀ ins, p.kind e.1 = .graph ins → e.2 < ins.length) : (concatAll (p.onMessage f) ds).isSome = true := by
  induction ds with
  | nil => rfl
  | cons e ds ih =>
    have h1 := onMessage_some h f e (hd e (List.mem_cons_self ..)).1 (hd e (List.mem_cons_self ..)).2
    have h2 := ih fun e' he => hd e' (List.mem_cons_of_mem _ he)
    simp only [concatAll]
    cases hx : p.onMessage f e with
    | none => rw [hx] at h1; cases h1
    | some x => simpa using h2

theorem toIR_some {p : Patch} {n : Nat} {g : Dest → Nat} (h : Inv p n g) {f : Nat} (hf : ∀ d, g d < f) (ids : List Nat) :
    (p.toIR f ids).isSome = true := by
  have : (ids.all fun o => (p.controlList f o).isSome) = true := by
    rw [List.all_eq_true]
    intro o _
    simp only [Patch.controlList]
    have lists : (allLists (concatAll (p.onMessage f)) (p.outs o)).isSome = true := by
      have : ∀ ls : List (List Dest), (∀ ds ∈ ls, ds ∈ p.outs o) → (allLists (concatAll (p.onMessage f)) ls).isSome = true := by
        intro ls
        induction ls with
        | nil => intro _; rfl
        | cons ds ls ih =>
          intro hls
          have h1 : (concatAll (p.onMessage f) ds).isSome = true := concat_some h ds fun e he => ⟨hf e, by
            obtain ⟨k, hk, e'⟩ := List.getElem_of_mem (hls ds (List.mem_cons_self ..))
            exact h.fits o k e (by simp only [Patch.out, List.getElem?_eq_getElem hk, Option.getD_some, e']; exact he)⟩
          have h2 := ih fun x hx => hls x (List.mem_cons_of_mem _ hx)
          simp only [allLists]
          cases hx : concatAll (p.onMessage f) ds with
          | none => rw [hx] at h1; cases h1
          | some x => simpa using h2
      exact this _ fun _ h => h
    cases hk : p.kind o with
    | send nm =>
      simp only [Option.isSome_map]
      refine concat_some h _ fun e he => ⟨hf e, fun ins hi => ?_⟩
      obtain ⟨r, hr, rfl⟩ := List.mem_map.mp he
      rw [(h.recv nm r hr).2] at hi
      cases hi
    | _ => exact lists
  simp only [Patch.toIR, this, if_true, Option.isSome_some]

theorem mem_targets {p : Patch} {s n : Nat} {l : List (Option Cast)} {e : Dest} (he : e ∈ seqTargets p s l n) :
    (∃ i, i < l.length ∧ e = (n + i, 0)) ∨ ∃ i, e ∈ p.out s i := by
  obtain ⟨i, hi, hm⟩ := List.mem_flatMap.mp he
  have hi' : i < l.length := by simpa using hi
  split at hm
  · exact .inl ⟨i, hi', by simpa using hm⟩
  · exact .inr ⟨i, hm⟩
  · simp at hm

theorem reduceSeq_out {p : Patch} {s n : Nat} {l : List (Option Cast)} {o k : Nat} {e : Dest} (he : e ∈ (p.reduceSeq s l n).out o k) :
    o ≠ s ∧ ((n ≤ o ∧ o < n + l.length ∧ e ∈ p.out s (o - n)) ∨
      (¬ (n ≤ o ∧ o < n + l.length) ∧ ∃ d ∈ p.out o k, d = e ∨ (d = (s, 0) ∧ e ∈ seqTargets p s l n))) := by
  simp only [Patch.out, Patch.reduceSeq] at he
  by_cases ho : o = s
  · simp [ho] at he
  · refine ⟨ho, ?_⟩
    simp only [ho, if_false] at he
    by_cases hn : n ≤ o ∧ o < n + l.length
    · simp only [hn, and_self, if_true] at he
      refine .inl ⟨hn.1, hn.2, ?_⟩
      cases k with
      | zero => simpa [Patch.out] using he
      | succ k => simp at he
    · simp only [hn, if_false] at he
      refine .inr ⟨hn, ?_⟩
      rw [List.getElem?_map] at he
      cases hk : (p.outs o)[k]? with
      | none => simp [hk] at he
      | some ds =>
        simp only [hk, Option.map_some, Option.getD_some, List.mem_flatMap] at he
        obtain ⟨d, hd, hm⟩ := he
        refine ⟨d, by simpa [Patch.out, hk] using hd, ?_⟩
        split at hm
        · exact .inr ⟨by assumption, hm⟩
        · exact .inl (by simpa using (List.mem_singleton.mp hm).symm)

theorem reduceSeq_kind {p : Patch} {s n o : Nat} {l : List (Option Cast)} :
    (p.reduceSeq s l n).kind o = .inlet ∨ (∃ c, (p.reduceSeq s l n).kind o = .cast c) ∨
      (o ≠ s ∧ ¬ (n ≤ o ∧ o < n + l.length) ∧ (p.reduceSeq s l n).kind o = p.kind o) := by
  simp only [Patch.reduceSeq]
  by_cases ho : o = s
  · simp [ho]
  · simp only [ho, if_false]
    by_cases hn : n ≤ o ∧ o < n + l.length
    · simp only [hn, and_self, if_true, castKind]
      split
      · exact .inr (.inl ⟨_, rfl⟩)
      · exact .inl rfl
    · exact .inr (.inr ⟨ho, hn, if_neg hn⟩)

theorem reduceSeq_inv {p : Patch} {s n : Nat} {l : List (Option Cast)} {g : Dest → Nat} (h : Inv p n g) (hs : p.kind s = .seq l) :
    Inv (p.reduceSeq s l n) (n + l.length) g := by
  -- a connection of an old object
  have old : ∀ {o k e}, o < n → e ∈ (p.reduceSeq s l n).out o k →
      ∃ d ∈ p.out o k, d = e ∨ (g e < g d ∨ (g e = 0 ∧ g e ≤ g d)) := by
    intro o k e hon he
    obtain ⟨_, h1 | ⟨_, d, hd, h2⟩⟩ := reduceSeq_out he
    · omega
    · refine ⟨d, hd, ?_⟩
      rcases h2 with h2 | ⟨rfl, h2⟩
      · exact .inl h2
      · rcases mem_targets h2 with ⟨i, _, rfl⟩ | ⟨i, hi⟩
        · have := h.fresh (n + i, 0) (by simp)
          exact .inr (.inr ⟨this, by omega⟩)
        · exact .inr (.inl (h.passes _ _ (.seq hs hi)))
  have kinds : ∀ {o : Nat} {K : Kind}, (p.reduceSeq s l n).kind o = K → K ≠ .inlet → (∀ c, K ≠ .cast c) → o ≠ s ∧ p.kind o = K := by
    intro o K hk h1 h2
    rcases reduceSeq_kind (p := p) (s := s) (n := n) (o := o) (l := l) with h3 | ⟨c, h3⟩ | ⟨h4, _, h3⟩
    · exact absurd (hk.symm.trans h3) h1
    · exact absurd (hk.symm.trans h3) (h2 c)
    · exact ⟨h4, h3.symm.trans hk⟩
  refine ⟨?_, ?_, ?_, ?_, ?_, ?_, ?_⟩
  · intro d e hp
    cases hp with
    | graph hk hi he =>
      obtain ⟨_, hk'⟩ := kinds hk (by simp) (by simp)
      obtain ⟨d', hd', h'⟩ := old (h.ins _ _ hk' _ (List.mem_of_getElem? hi)) he
      have := h.passes _ _ (.graph hk' hi hd')
      rcases h' with rfl | h' | ⟨h1, h2⟩
      · exact this
      · omega
      · omega
    | outlet hk he =>
      obtain ⟨_, hk'⟩ := kinds hk (by simp) (by simp)
      obtain ⟨d', hd', h'⟩ := old (h.lets _ _ _ hk') he
      rcases h' with rfl | h' | ⟨h1, h2⟩
      · exact h.passes _ _ (.outlet hk' hd')
      · have := h.passes _ _ (.outlet (j := ‹Nat›) hk' hd'); omega
      · have := h.passes _ _ (.outlet (j := ‹Nat›) hk' hd'); omega
    | @seq o l' k e hk he =>
      obtain ⟨_, hk'⟩ := kinds hk (by simp) (by simp)
      obtain ⟨_, ⟨h1, h2, h3⟩ | ⟨hn, d', hd', h'⟩⟩ := reduceSeq_out he
      · rcases reduceSeq_kind (p := p) (s := s) (n := n) (o := o) (l := l) with h3 | ⟨c, h3⟩ | ⟨_, h4, h3⟩
        · rw [hk] at h3; cases h3
        · rw [hk] at h3; cases h3
        · exact absurd ⟨h1, h2⟩ h4
      · have := h.passes _ _ (.seq hk' hd')
        rcases h' with rfl | ⟨rfl, h'⟩
        · exact this
        · rcases mem_targets h' with ⟨i, _, rfl⟩ | ⟨i, hi⟩
          · have h0 := h.fresh (n + i, 0) (by simp)
            omega
          · have := h.passes _ _ (.seq hs hi)
            omega
  · intro o k e he ins hi
    obtain ⟨_, hk'⟩ := kinds hi (by simp) (by simp)
    obtain ⟨_, ⟨_, _, h3⟩ | ⟨_, d, hd, rfl | ⟨rfl, h2⟩⟩⟩ := reduceSeq_out he
    · exact h.fits _ _ e h3 ins hk'
    · exact h.fits _ _ _ hd ins hk'
    · rcases mem_targets h2 with ⟨i, hil, rfl⟩ | ⟨i, h4⟩
      · rcases reduceSeq_kind (p := p) (s := s) (n := n) (o := n + i) (l := l) with h3 | ⟨c, h3⟩ | ⟨_, h4, _⟩
        · rw [hi] at h3; cases h3
        · rw [hi] at h3; cases h3
        · exact absurd ⟨by omega, by omega⟩ h4
      · exact h.fits _ _ e h4 ins hk'
  · exact fun d hd => h.fresh d (by omega)
  · intro o k e he
    obtain ⟨_, ⟨_, _, h3⟩ | ⟨_, d, hd, rfl | ⟨rfl, h2⟩⟩⟩ := reduceSeq_out he
    · have := h.dest _ _ e h3; omega
    · have := h.dest _ _ _ hd; omega
    · rcases mem_targets h2 with ⟨i, hil, rfl⟩ | ⟨i, h4⟩
      · simpa using hil
      · have := h.dest _ _ e h4; omega
  · intro o ins hk i hi
    have := h.ins o ins (kinds hk (by simp) (by simp)).2 i hi
    omega
  · intro o a k hk
    have := h.lets o a k (kinds hk (by simp) (by simp)).2
    omega
  · intro nm r hr
    obtain ⟨h1, h2⟩ := h.recv nm r hr
    refine ⟨by omega, ?_⟩
    have hne : r ≠ s := fun e => by rw [e, hs] at h2; cases h2
    have hnr : ¬ (n ≤ r ∧ r < n + l.length) := by omega
    simp only [Patch.reduceSeq, hne, hnr, if_false, h2]

theorem reduceAll_inv {p : Patch} {n : Nat} {g : Dest → Nat} (h : Inv p n g) (os : List Nat) :
    Inv (p.reduceAll n os).1 (p.reduceAll n os).2 g := by
  induction os generalizing p n with
  | nil => exact h
  | cons o os ih =>
    simp only [Patch.reduceAll]
    split
    · next l hk =>
      exact ih (reduceSeq_inv h hk)
    · exact ih h

theorem groupName_inv {p : Patch} {n : Nat} {g : Dest → Nat} (h : Inv p n g) (nm : Nat) : Inv (p.groupName nm n) (n + 1) g := by
  have kinds : ∀ {o : Nat} {K : Kind}, (p.groupName nm n).kind o = K → K ≠ .recv → o ≠ n ∧ p.kind o = K := by
    intro o K hk h1
    simp only [Patch.groupName] at hk
    split at hk
    · exact absurd hk.symm h1
    · exact ⟨by assumption, hk⟩
  have outs : ∀ {o k e}, o ≠ n → e ∈ (p.groupName nm n).out o k → e ∈ p.out o k := by
    intro o k e hne he
    simp only [Patch.out, Patch.groupName, hne, if_false] at he ⊢
    split at he
    · simp at he
    · exact he
  have any : ∀ {o k e}, e ∈ (p.groupName nm n).out o k → ∃ o' k', e ∈ p.out o' k' := by
    intro o k e he
    by_cases ho : o = n
    · subst ho
      simp only [Patch.out, Patch.groupName, if_true] at he
      cases k with
      | zero =>
        simp only [List.getElem?_cons_zero, Option.getD_some, List.mem_flatMap] at he
        obtain ⟨q, _, hq⟩ := he
        exact ⟨q, 0, hq⟩
      | succ k => simp at he
    · exact ⟨o, k, outs ho he⟩
  refine ⟨?_, ?_, ?_, ?_, ?_, ?_, ?_⟩
  · intro d e hp
    cases hp with
    | graph hk hi he =>
      obtain ⟨_, hk'⟩ := kinds hk (by simp)
      have := h.ins _ _ hk' _ (List.mem_of_getElem? hi)
      exact h.passes _ _ (.graph hk' hi (outs (by omega) he))
    | outlet hk he =>
      obtain ⟨_, hk'⟩ := kinds hk (by simp)
      have := h.lets _ _ _ hk'
      exact h.passes _ _ (.outlet hk' (outs (by omega) he))
    | seq hk he =>
      obtain ⟨hn, hk'⟩ := kinds hk (by simp)
      exact h.passes _ _ (.seq hk' (outs hn he))
  · intro o k e he ins hi
    obtain ⟨_, hk'⟩ := kinds hi (by simp)
    obtain ⟨o', k', h'⟩ := any he
    exact h.fits _ _ e h' ins hk'
  · exact fun d hd => h.fresh d (by omega)
  · intro o k e he
    obtain ⟨o', k', h'⟩ := any he
    have := h.dest _ _ e h'
    omega
  · intro o ins hk i hi
    have := h.ins o ins (kinds hk (by simp)).2 i hi
    omega
  · intro o a k hk
    have := h.lets o a k (kinds hk (by simp)).2
    omega
  · intro x r hr
    simp only [Patch.groupName] at hr ⊢
    split at hr
    · simp only [List.mem_singleton] at hr
      simp [hr]
    · obtain ⟨h1, h2⟩ := h.recv x r hr
      refine ⟨by omega, ?_⟩
      split
      · rfl
      · exact h2

theorem group_inv {p : Patch} {n : Nat} {g : Dest → Nat} (h : Inv p n g) (names : List Nat) :
    Inv (p.group n names).1 (p.group n names).2 g := by
  induction names generalizing p n with
  | nil => exact h
  | cons nm ns ih =>
    simp only [Patch.group]
    split
    · exact ih h
    · exact ih (groupName_inv h nm)

end Total

/-- **Patches compile** (C45).  A patch of `n` objects whose connections lead to inlets that exist, and in which a message cannot go
round in a circle through nothing but subpatch borders and [trigger]s (`g` bounds how far it can go), is turned into code, in
whatever order the [trigger]s are reduced and the names handled. -/
theorem compile_total {p : Patch} {n : Nat} (wf : WF p n) (hn : ∀ o, n ≤ o → p.kind o = .inlet) (hf : p.Fits) {g : Dest → Nat}
    (hg : ∀ d e, p.Passes d e → g e < g d) {f : Nat} (hb : ∀ d, g d < f) (os names : List Nat) :
    (p.compile n os names f).isSome = true := by
  have dest : ∀ o k, ∀ e ∈ p.out o k, e.1 < n := fun o k e he => by
    obtain ⟨ds, hds, hd⟩ := mem_out he
    exact (wf.dest o ds hds e hd).1
  have inr : ∀ {o K}, p.kind o = K → K ≠ .inlet → o < n := fun {o K} hk h => by
    by_contra hc
    exact h (hk.symm.trans (hn o (by omega)))
  have h0 : Total.Inv p n (fun d => if d.1 < n then g d else 0) := by
    refine ⟨fun d e hp => ?_, hf, fun d hd => if_neg (by omega), dest, fun o ins hk i hi => (wf.graph o ins hk i hi).1,
      fun o a k hk => (wf.outlet o a k hk).1, fun nm r hr => wf.recv nm r hr⟩
    have h1 := hg d e hp
    have h2 : d.1 < n ∧ e.1 < n := by
      cases hp with
      | graph hk hi he => exact ⟨inr hk (by simp), dest _ _ _ he⟩
      | outlet hk he => exact ⟨inr hk (by simp), dest _ _ _ he⟩
      | seq hk he => exact ⟨inr hk (by simp), dest _ _ _ he⟩
    simp only [h2.1, h2.2, if_true]
    exact h1
  have h1 := Total.group_inv (Total.reduceAll_inv h0 os) names
  simp only [Patch.compile, Option.isSome_map]
  exact Total.toIR_some h1 (fun d => by have := hb d; split <;> omega) _

/-- one step through a border of a subpatch -/
inductive Patch.Border (p : Patch) : Dest → Dest → Prop
  | graph {o ins k i e} : p.kind o = .graph ins → ins[k]? = some i → e ∈ p.out i 0 → p.Border (o, k) e
  | outlet {o g k j e} : p.kind o = .outlet g k → e ∈ p.out g k → p.Border (o, j) e

/-- **Circles do not compile** (C45).  If a connection leads into a circle of subpatch borders, there is no code, however deep the
recursion: `get_ir_on_message` never ends (in Python: RecursionError) -/
theorem circle_fails {p : Patch} {ch : Nat → Dest} (hc : ∀ i, p.Border (ch i) (ch (i + 1))) {o k : Nat} (ho : ∀ nm, p.kind o ≠ .send nm)
    (h : ch 0 ∈ p.out o k) (f : Nat) {ids : List Nat} (hi : o ∈ ids) : p.toIR f ids = none := by
  have none_of_mem : ∀ (g : Dest → Option (List Dest)) (ds : List Dest) (d : Dest), d ∈ ds → g d = none → concatAll g ds = none := by
    intro g ds d hd hg
    induction ds with
    | nil => simp at hd
    | cons x xs ih =>
      simp only [concatAll]
      rcases List.mem_cons.mp hd with rfl | hd
      · rw [hg]
      · rw [ih hd]
        cases g x <;> rfl
  have key : ∀ f i, p.onMessage f (ch i) = none := by
    intro f
    induction f with
    | zero => intro i; rfl
    | succ f ih =>
      intro i
      have hb := hc i
      generalize ch i = d at hb
      have hn := ih (i + 1)
      generalize ch (i + 1) = e at hb hn
      cases hb with
      | graph hk hin he =>
        simp only [Patch.onMessage, hk, hin]
        exact none_of_mem _ _ _ he hn
      | outlet hk he =>
        simp only [Patch.onMessage, hk]
        exact none_of_mem _ _ _ he hn
  have hcl : p.controlList f o = none := by
    obtain ⟨ds, hds, hd⟩ := mem_out h
    have e1 : concatAll (p.onMessage f) ds = none := none_of_mem _ _ _ hd (key f 0)
    have e2 : ∀ ls : List (List Dest), ds ∈ ls → allLists (concatAll (p.onMessage f)) ls = none := by
      intro ls hl
      induction ls with
      | nil => simp at hl
      | cons x xs ih =>
        simp only [allLists]
        rcases List.mem_cons.mp hl with rfl | hl
        · rw [e1]
        · rw [ih hl]
          cases concatAll (p.onMessage f) x <;> rfl
    simp only [Patch.controlList]
    cases hk : p.kind o with
    | send nm => exact absurd hk (ho nm)
    | _ => exact e2 _ hds
  have : ¬ (ids.all fun o => (p.controlList f o).isSome) = true := by
    rw [List.all_eq_true]
    intro hall
    have := hall o hi
    rw [hcl] at this
    cases this
  simp only [Patch.toIR, this, if_false, Bool.false_eq_true]

/-- a subpatch whose inlet is connected to its outlet, which is connected to its inlet: objects 0 (a source), 1 (the subpatch), 2 its
[inlet], 3 its [outlet] -/
def circle : Patch where
  kind
    | 1 => .graph [2]
    | 3 => .outlet 1 0
    | 2 => .inlet
    | 0 => .obj
    | _ => .inlet
  outs
    | 0 => [[(1, 0)]]
    | 1 => [[(1, 0)]]
    | 2 => [[(3, 0)]]
    | _ => []
  recvs _ := []
  prio _ := 0

example (f : Nat) : circle.toIR f [0, 1, 2, 3] = none :=
  circle_fails (ch := fun i => if i % 2 = 0 then (1, 0) else (3, 0)) (o := 0) (k := 0)
    (fun i => by
      have : i % 2 = 0 ∨ i % 2 = 1 := by omega
      rcases this with h | h
      · have h' : (i + 1) % 2 = 1 := by omega
        simp only [h, h', if_true]
        exact .graph (i := 2) rfl rfl (by simp [circle, Patch.out])
      · have h' : (i + 1) % 2 = 0 := by omega
        simp only [h, h', if_true]
        exact .outlet (g := 1) (k := 0) rfl (by simp [circle, Patch.out]))
    (by simp [circle]) (by simp [circle, Patch.out]) f (by simp)

end Verif.Control
