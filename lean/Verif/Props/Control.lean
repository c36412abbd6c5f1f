import Verif.Control
/-!
C35, C45: specification and proofs.
-/
namespace Verif.Control

variable {σ M : Type}

/-! ## Specification

What a patch means.  A message is delivered depth first: an object acts on it, and whatever it sends is delivered completely,
connection by connection in order, before it goes on. -/

/-- the receivers of a name in the order in which they fire: all of them, higher priority first, receivers of the same
priority in the order of their registration -/
structure FireOrder (p : Patch) (name : Nat) (l : List Nat) : Prop where
  all : l.Perm (p.recvs name)
  sorted : l.Pairwise fun a b => p.prio b ≤ p.prio a
  stable : ∀ x : Int, l.filter (fun r => p.prio r = x) = (p.recvs name).filter fun r => p.prio r = x

/-- the message, as it is or cast, to all connections of an outlet -/
def sendCast (E : Env σ M) (ds : List Dest) (m : M) : Option Cast → List (Dest × M)
  | none => ds.map (·, m)
  | some c =>
    match E.cast c m with
    | some m' => ds.map (·, m')
    | none => []

/-- the messages a sequence sends: the outlets from right to left, each message cast -/
def trigger (E : Env σ M) (out : Nat → List Dest) (m : M) : Nat → List (Option Cast) → List (Dest × M)
  | _, [] => []
  | k, c :: cs => trigger E out m (k + 1) cs ++ sendCast E (out k) m c

/-- a patch as a system; `order` gives the firing order of receivers -/
def Patch.means (p : Patch) (order : Nat → List Nat) (E : Env σ M) : Sys σ M where
  out := p.out
  node d m :=
    match p.kind d.1 with
    | .obj => .obj (E.beh d.1 d.2 m)
    | .seq l => .fwd false (trigger E (p.out d.1) m 0 l)
    | .cast c =>
      match E.cast c m with
      | some m' => .fwd false ((p.out d.1 0).map (·, m'))
      | none => .fwd false []
    | .graph ins =>
      match ins[d.2]? with
      | some i => .fwd false ((p.out i 0).map (·, m))
      | none => .fwd false []
    | .outlet g k => .fwd false ((p.out g k).map (·, m))
    | .send name => .fwd true ((order name).flatMap fun r => (p.out r 0).map (·, m))
    | _ => .fwd false []

/-! ## Evaluation as a relation -/

/-- what is being done -/
inductive Cfg (σ M : Type)
  | one (x : Dest × M)
  | all (l : List (Dest × M))
  | act (o : Nat) (a : Act σ M)

/-- it ends in a state, with a list of noticed calls -/
inductive Big (S : Sys σ M) : Cfg σ M → σ → σ → List (Dest × M) → Prop
  | obj {x a s s' t} : S.node x.1 x.2 = .obj a → Big S (.act x.1.1 a) s s' t → Big S (.one x) s s' (x :: t)
  | fwd {x v l s s' t} : S.node x.1 x.2 = .fwd v l → Big S (.all l) s s' t → Big S (.one x) s s' (if v then x :: t else t)
  | nil {s} : Big S (.all []) s s []
  | cons {x xs s s1 s2 t1 t2} : Big S (.one x) s s1 t1 → Big S (.all xs) s1 s2 t2 → Big S (.all (x :: xs)) s s2 (t1 ++ t2)
  | done {o s} : Big S (.act o .done) s s []
  | get {o f s s' t} : Big S (.act o (f s)) s s' t → Big S (.act o (.get f)) s s' t
  | set {o a s s0 s' t} : Big S (.act o a) s s' t → Big S (.act o (.set s a)) s0 s' t
  | send {o k m a s s1 s2 t1 t2} : Big S (.all ((S.out o k).map (·, m))) s s1 t1 → Big S (.act o a) s1 s2 t2 →
      Big S (.act o (.send k m a)) s s2 (t1 ++ t2)

/-- the same with bounded depth -/
def Sys.run (S : Sys σ M) (n : Nat) : Cfg σ M → σ → Option (σ × List (Dest × M))
  | .one x, s => S.deliver n x s
  | .all l, s => sendAll (S.deliver n) l s
  | .act o a, s => execAct (S.deliver n) (S.out o) a s

theorem sendAll_mono {f g : Dest × M → σ → Option (σ × List (Dest × M))} (h : ∀ x s r, f x s = some r → g x s = some r)
    (l : List (Dest × M)) (s : σ) (r : σ × List (Dest × M)) (e : sendAll f l s = some r) : sendAll g l s = some r := by
  induction l generalizing s r with
  | nil => exact e
  | cons x xs ih =>
    rw [sendAll] at e ⊢
    generalize hx : f x s = o at e
    match o, hx with
    | none, _ => simp at e
    | some (s1, t1), hx =>
      rw [h _ _ _ hx]
      simp only at e ⊢
      generalize hy : sendAll f xs s1 = o2 at e
      match o2, hy with
      | none, _ => simp at e
      | some (s2, t2), hy => rw [ih _ _ hy]; exact e

theorem execAct_mono {f g : Dest × M → σ → Option (σ × List (Dest × M))} (h : ∀ x s r, f x s = some r → g x s = some r)
    (out : Nat → List Dest) (a : Act σ M) (s : σ) (r : σ × List (Dest × M)) (e : execAct f out a s = some r) :
    execAct g out a s = some r := by
  induction a generalizing s r with
  | done => exact e
  | get k ih => exact ih _ _ _ e
  | set s0 a ih => exact ih _ _ e
  | send k m a ih =>
    rw [execAct] at e ⊢
    generalize hx : sendAll f ((out k).map (·, m)) s = o at e
    match o, hx with
    | none, _ => simp at e
    | some (s1, t1), hx =>
      rw [sendAll_mono h _ _ _ hx]
      simp only at e ⊢
      generalize hy : execAct f out a s1 = o2 at e
      match o2, hy with
      | none, _ => simp at e
      | some (s2, t2), hy => rw [ih _ _ hy]; exact e

theorem deliver_succ (S : Sys σ M) (n : Nat) (x : Dest × M) (s : σ) (r : σ × List (Dest × M)) (e : S.deliver n x s = some r) :
    S.deliver (n + 1) x s = some r := by
  induction n generalizing x s r with
  | zero => simp [Sys.deliver] at e
  | succ n ih =>
    rw [Sys.deliver] at e ⊢
    generalize S.node x.1 x.2 = nd at e
    match nd with
    | .obj a =>
      simp only [Option.map_eq_some_iff] at e ⊢
      obtain ⟨q, h1, h2⟩ := e
      exact ⟨q, execAct_mono ih _ _ _ _ h1, h2⟩
    | .fwd v l =>
      simp only [Option.map_eq_some_iff] at e ⊢
      obtain ⟨q, h1, h2⟩ := e
      exact ⟨q, sendAll_mono ih _ _ _ h1, h2⟩

theorem deliver_mono (S : Sys σ M) {n k : Nat} (h : n ≤ k) (x : Dest × M) (s : σ) (r : σ × List (Dest × M))
    (e : S.deliver n x s = some r) : S.deliver k x s = some r := by
  induction h with
  | refl => exact e
  | step _ ih => exact deliver_succ S _ x s r ih

theorem run_mono (S : Sys σ M) {n k : Nat} (h : n ≤ k) (c : Cfg σ M) (s : σ) (r : σ × List (Dest × M))
    (e : S.run n c s = some r) : S.run k c s = some r :=
  match c with
  | .one _ => deliver_mono S h _ s r e
  | .all _ => sendAll_mono (deliver_mono S h) _ s r e
  | .act _ _ => execAct_mono (deliver_mono S h) _ _ s r e

theorem Big.run {S : Sys σ M} {c : Cfg σ M} {s s' : σ} {t : List (Dest × M)} (h : Big S c s s' t) :
    ∃ n, S.run n c s = some (s', t) := by
  induction h with
  | @obj x a s s' t h _ ih =>
    obtain ⟨n, ih⟩ := ih
    refine ⟨n + 1, ?_⟩
    show S.deliver (n + 1) x s = _
    rw [Sys.deliver, h]
    simp only
    rw [show execAct (S.deliver n) (S.out x.1.1) a s = _ from ih]
    rfl
  | @fwd x v l s s' t h _ ih =>
    obtain ⟨n, ih⟩ := ih
    refine ⟨n + 1, ?_⟩
    show S.deliver (n + 1) x s = _
    rw [Sys.deliver, h]
    simp only
    rw [show sendAll (S.deliver n) l s = _ from ih]
    rfl
  | nil => exact ⟨0, rfl⟩
  | @cons x xs s s1 s2 t1 t2 _ _ ih1 ih2 =>
    obtain ⟨n1, h1⟩ := ih1
    obtain ⟨n2, h2⟩ := ih2
    refine ⟨max n1 n2, ?_⟩
    have h1 := run_mono S (le_max_left n1 n2) _ _ _ h1
    have h2 := run_mono S (le_max_right n1 n2) _ _ _ h2
    show sendAll _ (x :: xs) s = _
    rw [sendAll, show S.deliver _ x s = _ from h1]
    simp only
    rw [show sendAll _ xs s1 = _ from h2]
  | done => exact ⟨0, rfl⟩
  | get _ ih => exact ih
  | set _ ih => exact ih
  | @send o k m a s s1 s2 t1 t2 _ _ ih1 ih2 =>
    obtain ⟨n1, h1⟩ := ih1
    obtain ⟨n2, h2⟩ := ih2
    refine ⟨max n1 n2, ?_⟩
    have h1 := run_mono S (le_max_left n1 n2) _ _ _ h1
    have h2 := run_mono S (le_max_right n1 n2) _ _ _ h2
    show execAct _ _ (.send k m a) s = _
    rw [execAct, show sendAll _ ((S.out o k).map (·, m)) s = _ from h1]
    simp only
    rw [show execAct _ _ a s1 = _ from h2]

theorem big_sendAll {S : Sys σ M} {f : Dest × M → σ → Option (σ × List (Dest × M))}
    (hf : ∀ x s s' t, f x s = some (s', t) → Big S (.one x) s s' t) (l : List (Dest × M)) (s s' : σ) (t : List (Dest × M))
    (e : sendAll f l s = some (s', t)) : Big S (.all l) s s' t := by
  induction l generalizing s s' t with
  | nil => simp [sendAll] at e; obtain ⟨rfl, rfl⟩ := e; exact .nil
  | cons x xs ih =>
    rw [sendAll] at e
    generalize hx : f x s = o at e
    match o, hx with
    | none, _ => simp at e
    | some (s1, t1), hx =>
      simp only at e
      generalize hy : sendAll f xs s1 = o2 at e
      match o2, hy with
      | none, _ => simp at e
      | some (s2, t2), hy =>
        simp at e
        obtain ⟨rfl, rfl⟩ := e
        exact .cons (hf _ _ _ _ hx) (ih _ _ _ hy)

theorem big_execAct {S : Sys σ M} {f : Dest × M → σ → Option (σ × List (Dest × M))}
    (hf : ∀ x s s' t, f x s = some (s', t) → Big S (.one x) s s' t) (o : Nat) (a : Act σ M) (s s' : σ) (t : List (Dest × M))
    (e : execAct f (S.out o) a s = some (s', t)) : Big S (.act o a) s s' t := by
  induction a generalizing s s' t with
  | done => simp [execAct] at e; obtain ⟨rfl, rfl⟩ := e; exact .done
  | get k ih => exact .get (ih _ _ _ _ e)
  | set s0 a ih => exact .set (ih _ _ _ e)
  | send k m a ih =>
    rw [execAct] at e
    generalize hx : sendAll f ((S.out o k).map (·, m)) s = o1 at e
    match o1, hx with
    | none, _ => simp at e
    | some (s1, t1), hx =>
      simp only at e
      generalize hy : execAct f (S.out o) a s1 = o2 at e
      match o2, hy with
      | none, _ => simp at e
      | some (s2, t2), hy =>
        simp at e
        obtain ⟨rfl, rfl⟩ := e
        exact .send (big_sendAll hf _ _ _ _ hx) (ih _ _ _ hy)

theorem big_deliver {S : Sys σ M} (n : Nat) (x : Dest × M) (s s' : σ) (t : List (Dest × M))
    (e : S.deliver n x s = some (s', t)) : Big S (.one x) s s' t := by
  induction n generalizing x s s' t with
  | zero => simp [Sys.deliver] at e
  | succ n ih =>
    rw [Sys.deliver] at e
    generalize hn : S.node x.1 x.2 = nd at e
    match nd, hn with
    | .obj a, hn =>
      simp only [Option.map_eq_some_iff, Prod.mk.injEq] at e
      obtain ⟨⟨s1, t1⟩, h1, rfl, rfl⟩ := e
      exact .obj hn (big_execAct ih _ _ _ _ _ h1)
    | .fwd v l, hn =>
      simp only [Option.map_eq_some_iff, Prod.mk.injEq] at e
      obtain ⟨⟨s1, t1⟩, h1, rfl, rfl⟩ := e
      exact .fwd hn (big_sendAll ih _ _ _ _ h1)

theorem big_all_iff {S : Sys σ M} {l : List (Dest × M)} {s s' : σ} {t : List (Dest × M)} :
    Big S (.all l) s s' t ↔ ∃ n, sendAll (S.deliver n) l s = some (s', t) :=
  ⟨fun h => h.run, fun ⟨_, h⟩ => big_sendAll (big_deliver _) _ _ _ _ h⟩

theorem big_append {S : Sys σ M} {l l' : List (Dest × M)} {s s1 s2 : σ} {t t' : List (Dest × M)}
    (h : Big S (.all l) s s1 t) (h' : Big S (.all l') s1 s2 t') : Big S (.all (l ++ l')) s s2 (t ++ t') := by
  induction l generalizing s s1 t with
  | nil => cases h; exact h'
  | cons x xs ih =>
    cases h with
    | cons h1 h2 => rw [List.append_assoc]; exact .cons h1 (ih h2 h')

theorem big_append_inv {S : Sys σ M} {l l' : List (Dest × M)} {s s2 : σ} {t : List (Dest × M)}
    (h : Big S (.all (l ++ l')) s s2 t) : ∃ s1 t1 t2, t = t1 ++ t2 ∧ Big S (.all l) s s1 t1 ∧ Big S (.all l') s1 s2 t2 := by
  induction l generalizing s t with
  | nil => exact ⟨s, [], t, rfl, .nil, h⟩
  | cons x xs ih =>
    cases h with
    | cons h1 h2 =>
      obtain ⟨s1, t1, t2, rfl, h3, h4⟩ := ih h2
      exact ⟨s1, _, t2, by rw [List.append_assoc], .cons h1 h3, h4⟩

theorem big_one {S : Sys σ M} {x : Dest × M} {s s' : σ} {t : List (Dest × M)} :
    Big S (.all [x]) s s' t ↔ Big S (.one x) s s' t := by
  constructor
  · intro h
    cases h with
    | cons h1 h2 => cases h2; rw [List.append_nil]; exact h1
  · intro h
    simpa using Big.cons h .nil

/-! ## Passing on -/

/-- one list of calls becomes another one when forwarding nodes are replaced by what they pass on -/
inductive Silent (S : Sys σ M) : List (Dest × M) → List (Dest × M) → Prop
  | refl {l} : Silent S l l
  | expand {x l} : S.node x.1 x.2 = .fwd false l → Silent S [x] l
  | append {a b c d} : Silent S a b → Silent S c d → Silent S (a ++ c) (b ++ d)

theorem Silent.big {S : Sys σ M} {l l' : List (Dest × M)} (h : Silent S l l') {s s' : σ} {t : List (Dest × M)}
    (hb : Big S (.all l') s s' t) : Big S (.all l) s s' t := by
  induction h generalizing s s' t with
  | refl => exact hb
  | expand e => exact big_one.mpr (by simpa using Big.fwd e hb)
  | append _ _ ih1 ih2 =>
    obtain ⟨s1, t1, t2, rfl, h1, h2⟩ := big_append_inv hb
    exact big_append (ih1 h1) (ih2 h2)

theorem sendAll_append {f : Dest × M → σ → Option (σ × List (Dest × M))} {l l' : List (Dest × M)} {s s' : σ}
    {t : List (Dest × M)} : sendAll f (l ++ l') s = some (s', t) ↔
      ∃ s1 t1 t2, t = t1 ++ t2 ∧ sendAll f l s = some (s1, t1) ∧ sendAll f l' s1 = some (s', t2) := by
  induction l generalizing s t with
  | nil => simp [sendAll]
  | cons x xs ih =>
    rw [List.cons_append, sendAll, sendAll]
    generalize f x s = o
    match o with
    | none => simp
    | some (s1, t1) =>
      simp only
      constructor
      · intro e
        generalize hy : sendAll f (xs ++ l') s1 = o2 at e
        match o2, hy with
        | none, _ => simp at e
        | some (s2, t2), hy =>
          simp at e
          obtain ⟨rfl, rfl⟩ := e
          obtain ⟨s3, t3, t4, rfl, h1, h2⟩ := ih.mp hy
          exact ⟨s3, t1 ++ t3, t4, by simp, by rw [h1], h2⟩
      · rintro ⟨s3, t3, t4, rfl, h1, h2⟩
        generalize hy : sendAll f xs s1 = o2 at h1
        match o2, hy with
        | none, _ => simp at h1
        | some (s5, t5), hy =>
          simp at h1
          obtain ⟨rfl, rfl⟩ := h1
          rw [ih.mpr ⟨s5, t5, t4, rfl, hy, h2⟩]
          simp

theorem Silent.fuel {S : Sys σ M} {l l' : List (Dest × M)} (h : Silent S l l') {n : Nat} {s s' : σ} {t : List (Dest × M)}
    (e : sendAll (S.deliver n) l s = some (s', t)) : sendAll (S.deliver n) l' s = some (s', t) := by
  induction h generalizing s s' t with
  | refl => exact e
  | @expand x l hx =>
    cases n with
    | zero => simp [sendAll, Sys.deliver] at e
    | succ n =>
      simp only [sendAll, Sys.deliver, hx] at e
      generalize hy : sendAll (S.deliver n) l s = o at e
      match o, hy with
      | none, _ => simp at e
      | some (s1, t1), hy =>
        simp at e
        obtain ⟨rfl, rfl⟩ := e
        exact sendAll_mono (deliver_succ S n) _ _ _ hy
  | append _ _ ih1 ih2 =>
    obtain ⟨s1, t1, t2, rfl, h1, h2⟩ := sendAll_append.mp e
    exact sendAll_append.mpr ⟨s1, t1, t2, rfl, ih1 h1, ih2 h2⟩

/-- every outlet used has the property -/
inductive Act.Uses (P : Nat → Prop) : Act σ M → Prop
  | done : Uses P .done
  | get {f} : (∀ s, Uses P (f s)) → Uses P (.get f)
  | set {s a} : Uses P a → Uses P (.set s a)
  | send {k m a} : P k → Uses P a → Uses P (.send k m a)

theorem Act.Uses.mono {P Q : Nat → Prop} {a : Act σ M} (h : a.Uses P) (hpq : ∀ k, P k → Q k) : a.Uses Q := by
  induction h with
  | done => exact .done
  | get _ ih => exact .get ih
  | set _ ih => exact .set ih
  | send hk _ ih => exact .send (hpq _ hk) ih

/-- `S'` arises from `S` by replacing calls by the calls `φ`; `P`: the calls that occur -/
structure Inline (S S' : Sys σ M) (P : Dest × M → Prop) (φ : Dest × M → List (Dest × M)) (rank : Dest × M → Nat) : Prop where
  obj : ∀ x a, P x → S.node x.1 x.2 = .obj a → φ x = [x] ∧ S'.node x.1 x.2 = .obj a ∧
    a.Uses fun k => ∀ m, (∀ e ∈ S.out x.1.1 k, P (e, m)) ∧ ((S.out x.1.1 k).map (·, m)).flatMap φ = (S'.out x.1.1 k).map (·, m)
  fwd : ∀ x v l, P x → S.node x.1 x.2 = .fwd v l → (∀ e ∈ l, P e) ∧
    ((φ x = [x] ∧ ∃ l', S'.node x.1 x.2 = .fwd v l' ∧ Silent S' l' (l.flatMap φ)) ∨
     (v = false ∧ Silent S' (φ x) (l.flatMap φ) ∧ ∀ e ∈ l, rank e < rank x))

namespace Inline

variable {S S' : Sys σ M} {P : Dest × M → Prop} {φ : Dest × M → List (Dest × M)} {rank : Dest × M → Nat}

/-- what has to be shown about a configuration -/
def Goal (S S' : Sys σ M) (P : Dest × M → Prop) (φ : Dest × M → List (Dest × M)) (s s' : σ) (t : List (Dest × M)) :
    Cfg σ M → Prop
  | .one x => P x → Big S' (.all (φ x)) s s' t
  | .all l => (∀ e ∈ l, P e) → Big S' (.all (l.flatMap φ)) s s' t
  | .act o a => a.Uses (fun k => ∀ m, (∀ e ∈ S.out o k, P (e, m)) ∧
      ((S.out o k).map (·, m)).flatMap φ = (S'.out o k).map (·, m)) → Big S' (.act o a) s s' t

theorem preserves (h : Inline S S' P φ rank) {c : Cfg σ M} {s s' : σ} {t : List (Dest × M)} (hb : Big S c s s' t) :
    Goal S S' P φ s s' t c := by
  induction hb with
  | @obj x a s s' t hn _ ih =>
    intro hp
    obtain ⟨h1, h2, h3⟩ := h.obj x a hp hn
    rw [h1]
    exact big_one.mpr (.obj h2 (ih h3))
  | @fwd x v l s s' t hn _ ih =>
    intro hp
    obtain ⟨h0, h1 | h1⟩ := h.fwd x v l hp hn
    · obtain ⟨h1, l', h2, h3⟩ := h1
      rw [h1]
      exact big_one.mpr (.fwd h2 (h3.big (ih h0)))
    · obtain ⟨rfl, h2, -⟩ := h1
      exact h2.big (ih h0)
  | nil => exact fun _ => .nil
  | cons _ _ ih1 ih2 =>
    intro hp
    rw [List.flatMap_cons]
    exact big_append (ih1 (hp _ (by simp))) (ih2 fun e he => hp e (by simp [he]))
  | done => exact fun _ => .done
  | get _ ih =>
    intro hu
    cases hu with
    | get hu => exact .get (ih (hu _))
  | set _ ih =>
    intro hu
    cases hu with
    | set hu => exact .set (ih hu)
  | @send o k m a s s1 s2 t1 t2 _ _ ih1 ih2 =>
    intro hu
    cases hu with
    | send hk hu =>
      refine .send ?_ (ih2 hu)
      rw [← (hk m).2]
      refine ih1 fun e he => ?_
      obtain ⟨d, hd, rfl⟩ := List.mem_map.mp he
      exact (hk m).1 d hd

theorem from_list {n : Nat} {Q : Dest × M → Prop}
    (hone : ∀ x, Q x → ∀ s s' t, sendAll (S'.deliver n) (φ x) s = some (s', t) → Big S (.one x) s s' t)
    (l : List (Dest × M)) (hl : ∀ e ∈ l, Q e) (s s' : σ) (t : List (Dest × M))
    (e : sendAll (S'.deliver n) (l.flatMap φ) s = some (s', t)) : Big S (.all l) s s' t := by
  induction l generalizing s s' t with
  | nil => simp [sendAll] at e; obtain ⟨rfl, rfl⟩ := e; exact .nil
  | cons x xs ih =>
    rw [List.flatMap_cons] at e
    obtain ⟨s1, t1, t2, rfl, h1, h2⟩ := sendAll_append.mp e
    exact .cons (hone x (hl x (by simp)) _ _ _ h1) (ih (fun e he => hl e (by simp [he])) _ _ _ h2)

theorem from_act {n : Nat}
    (hlist : ∀ l : List (Dest × M), (∀ e ∈ l, P e) → ∀ s s' t, sendAll (S'.deliver n) (l.flatMap φ) s = some (s', t) →
      Big S (.all l) s s' t)
    (o : Nat) (a : Act σ M) (hu : a.Uses fun k => ∀ m, (∀ e ∈ S.out o k, P (e, m)) ∧
      ((S.out o k).map (·, m)).flatMap φ = (S'.out o k).map (·, m)) (s s' : σ) (t : List (Dest × M))
    (e : execAct (S'.deliver n) (S'.out o) a s = some (s', t)) : Big S (.act o a) s s' t := by
  induction hu generalizing s s' t with
  | done => simp [execAct] at e; obtain ⟨rfl, rfl⟩ := e; exact .done
  | get _ ih => exact .get (ih _ _ _ _ e)
  | set _ ih => exact .set (ih _ _ _ e)
  | @send k m a hk _ ih =>
    rw [execAct, ← (hk m).2] at e
    generalize hx : sendAll (S'.deliver n) (((S.out o k).map (·, m)).flatMap φ) s = o1 at e
    match o1, hx with
    | none, _ => simp at e
    | some (s1, t1), hx =>
      simp only at e
      generalize hy : execAct (S'.deliver n) (S'.out o) a s1 = o2 at e
      match o2, hy with
      | none, _ => simp at e
      | some (s2, t2), hy =>
        simp at e
        obtain ⟨rfl, rfl⟩ := e
        refine .send (hlist _ (fun e he => ?_) _ _ _ hx) (ih _ _ _ hy)
        obtain ⟨d, hd, rfl⟩ := List.mem_map.mp he
        exact (hk m).1 d hd

theorem from_fuel (h : Inline S S' P φ rank) (n : Nat) (x : Dest × M) (hp : P x) (s s' : σ) (t : List (Dest × M))
    (e : sendAll (S'.deliver n) (φ x) s = some (s', t)) : Big S (.one x) s s' t := by
  induction n generalizing x s s' t with
  | zero =>
    generalize hr : rank x = r
    induction r using Nat.strong_induction_on generalizing x s s' t with
    | _ r ihr =>
      generalize hn : S.node x.1 x.2 = nd
      match nd, hn with
      | .obj a, hn =>
        rw [(h.obj x a hp hn).1] at e
        simp [sendAll, Sys.deliver] at e
      | .fwd v l, hn =>
        obtain ⟨h0, h1 | h1⟩ := h.fwd x v l hp hn
        · rw [h1.1] at e
          simp [sendAll, Sys.deliver] at e
        · obtain ⟨rfl, h2, h3⟩ := h1
          have := from_list (Q := fun y => P y ∧ rank y < rank x) (fun y hy s s' t he => ihr (rank y) (hr ▸ hy.2) y hy.1 s s' t he rfl)
            l (fun e he => ⟨h0 e he, h3 e he⟩) s s' t (h2.fuel e)
          simpa using Big.fwd hn this
  | succ n ih =>
    generalize hr : rank x = r
    induction r using Nat.strong_induction_on generalizing x s s' t with
    | _ r ihr =>
      generalize hn : S.node x.1 x.2 = nd
      match nd, hn with
      | .obj a, hn =>
        obtain ⟨h1, h2, h3⟩ := h.obj x a hp hn
        rw [h1] at e
        simp only [sendAll, Sys.deliver, h2] at e
        generalize hy : execAct (S'.deliver n) (S'.out x.1.1) a s = o at e
        match o, hy with
        | none, _ => simp at e
        | some (s1, t1), hy =>
          simp at e
          obtain ⟨rfl, rfl⟩ := e
          exact .obj hn (from_act (from_list (Q := P) ih) _ _ h3 _ _ _ hy)
      | .fwd v l, hn =>
        obtain ⟨h0, h1 | h1⟩ := h.fwd x v l hp hn
        · obtain ⟨h1, l', h2, h3⟩ := h1
          rw [h1] at e
          simp only [sendAll, Sys.deliver, h2] at e
          generalize hy : sendAll (S'.deliver n) l' s = o at e
          match o, hy with
          | none, _ => simp at e
          | some (s1, t1), hy =>
            simp at e
            obtain ⟨rfl, rfl⟩ := e
            exact .fwd hn (from_list (Q := P) ih l h0 _ _ _ (h3.fuel hy))
        · obtain ⟨rfl, h2, h3⟩ := h1
          have := from_list (Q := fun y => P y ∧ rank y < rank x) (fun y hy s s' t he => ihr (rank y) (hr ▸ hy.2) y hy.1 s s' t he rfl)
            l (fun e he => ⟨h0 e he, h3 e he⟩) s s' t (h2.fuel e)
          simpa using Big.fwd hn this

/-- both systems do the same -/
theorem correct (h : Inline S S' P φ rank) (l : List (Dest × M)) (hl : ∀ e ∈ l, P e) (s s' : σ) (t : List (Dest × M)) :
    Big S (.all l) s s' t ↔ Big S' (.all (l.flatMap φ)) s s' t := by
  constructor
  · exact fun hb => h.preserves hb hl
  · intro hb
    obtain ⟨n, e⟩ := big_all_iff.mp hb
    exact from_list (Q := P) (h.from_fuel n) l hl s s' t e

end Inline

theorem Act.uses_all {P : Nat → Prop} (h : ∀ k, P k) (a : Act σ M) : a.Uses P := by
  induction a with
  | done => exact .done
  | get _ ih => exact .get ih
  | set _ _ ih => exact .set ih
  | send k _ _ ih => exact .send (h k) ih

/-! ## Receivers -/

theorem sorted_fireOrder (p : Patch) (name : Nat) : FireOrder p name (p.sorted name) := by
  have trans : ∀ a b c : Nat, decide (p.prio b ≤ p.prio a) = true → decide (p.prio c ≤ p.prio b) = true →
      decide (p.prio c ≤ p.prio a) = true := by
    intro a b c h1 h2
    simp only [decide_eq_true_eq] at *
    omega
  have total : ∀ a b : Nat, (decide (p.prio b ≤ p.prio a) || decide (p.prio a ≤ p.prio b)) = true := by
    intro a b
    simp only [Bool.or_eq_true, decide_eq_true_eq]
    omega
  refine ⟨List.mergeSort_perm _ _, (List.pairwise_mergeSort trans total _).imp fun h => of_decide_eq_true h, fun x => ?_⟩
  have h : ((p.recvs name).filter fun r => p.prio r = x).Sublist (p.sorted name) := by
    refine List.sublist_mergeSort trans total ?_ List.filter_sublist
    rw [List.pairwise_filter]
    refine List.pairwise_of_forall fun a b h1 h2 => ?_
    simp only [decide_eq_true_eq] at *
    omega
  have h2 := h.filter fun r => decide (p.prio r = x)
  rw [List.filter_filter] at h2
  simp only [Bool.and_self] at h2
  refine (h2.eq_of_length ?_).symm
  exact ((List.mergeSort_perm (p.recvs name) _).filter _).length_eq.symm

/-- there is only one firing order -/
theorem FireOrder.unique {p : Patch} {name : Nat} {l l' : List Nat} (h : FireOrder p name l) (h' : FireOrder p name l') :
    l = l' := by
  have key : ∀ l l' : List Nat, l.Pairwise (fun a b => p.prio b ≤ p.prio a) → l'.Pairwise (fun a b => p.prio b ≤ p.prio a) →
      (∀ x : Int, l.filter (fun r => p.prio r = x) = l'.filter fun r => p.prio r = x) → l = l' := by
    intro l
    induction l with
    | nil =>
      intro l' _ _ h3
      cases l' with
      | nil => rfl
      | cons b bs => have := h3 (p.prio b); simp at this
    | cons a as ih =>
      intro l' h1 h2 h3
      cases l' with
      | nil => have := h3 (p.prio a); simp at this
      | cons b bs =>
        have ha : a ∈ b :: bs := by
          have : a ∈ (b :: bs).filter fun r => p.prio r = p.prio a := by rw [← h3]; simp
          exact (List.mem_filter.mp this).1
        have hb : b ∈ a :: as := by
          have : b ∈ (a :: as).filter fun r => p.prio r = p.prio b := by rw [h3]; simp
          exact (List.mem_filter.mp this).1
        have e1 : p.prio a ≤ p.prio b := by
          rcases List.mem_cons.mp ha with rfl | ha
          · exact Int.le_refl _
          · exact (List.pairwise_cons.mp h2).1 a ha
        have e2 : p.prio b ≤ p.prio a := by
          rcases List.mem_cons.mp hb with rfl | hb
          · exact Int.le_refl _
          · exact (List.pairwise_cons.mp h1).1 b hb
        have e : p.prio b = p.prio a := by omega
        have hab := h3 (p.prio a)
        simp only [List.filter_cons, e, decide_true, if_true] at hab
        have hab : a = b := (List.cons.inj hab).1
        subst hab
        refine congrArg _ (ih bs (List.pairwise_cons.mp h1).2 (List.pairwise_cons.mp h2).2 fun x => ?_)
        have := h3 x
        simp only [List.filter_cons] at this
        split at this
        · exact (List.cons.inj this).2
        · exact this
  exact key l l' h.sorted h'.sorted fun x => (h.stable x).trans (h'.stable x).symm

/-! ## Well-formed patches -/

/-- the objects are numbered below `n`; sequences have one inlet, receivers none; the inlets, outlets and receivers are what they should be; no
cycle consists of sequences only (it would not stop in Pd either) -/
structure WF (p : Patch) (n : Nat) : Prop where
  dest : ∀ o, ∀ ds ∈ p.outs o, ∀ d ∈ ds, d.1 < n ∧ (∀ l, p.kind d.1 = .seq l → d.2 = 0) ∧ p.kind d.1 ≠ .recv
  graph : ∀ o ins, p.kind o = .graph ins → ∀ i ∈ ins, i < n ∧ p.kind i = .inlet
  outlet : ∀ o g k, p.kind o = .outlet g k → g < n ∧ ∃ ins, p.kind g = .graph ins
  recv : ∀ name, ∀ r ∈ p.recvs name, r < n ∧ p.kind r = .recv
  disjoint : ∀ a b r, r ∈ p.recvs a → r ∈ p.recvs b → a = b
  acyclic : ∃ rank : Nat → Nat, ∀ s l, p.kind s = .seq l → ∀ ds ∈ p.outs s, ∀ d ∈ ds, ∀ l', p.kind d.1 = .seq l' →
    rank d.1 < rank s

theorem mem_out {p : Patch} {o k : Nat} {d : Dest} (h : d ∈ p.out o k) : ∃ ds ∈ p.outs o, d ∈ ds := by
  unfold Patch.out at h
  cases hk : (p.outs o)[k]? with
  | none => rw [hk] at h; simp at h
  | some ds => rw [hk] at h; exact ⟨ds, List.mem_of_getElem? hk, h⟩

/-- messages sent from outlets, as calls -/
def calls (out : Nat → Nat → List Dest) (src : List (Nat × Nat × M)) : List (Dest × M) :=
  src.flatMap fun x => (out x.1 x.2.1).map (·, x.2.2)

/-! ## Sequences -/

section Seq

variable {p : Patch} {n s : Nat} {l : List (Option Cast)}

/-- the calls that replace a call -/
def seqφ (p : Patch) (s : Nat) (l : List (Option Cast)) (n : Nat) (x : Dest × M) : List (Dest × M) :=
  if x.1 = (s, 0) then (seqTargets p s l n).map (·, x.2) else [x]

theorem reduceSeq_out (o k : Nat) (h1 : o ≠ s) (h2 : o < n) :
    (p.reduceSeq s l n).out o k = (p.out o k).flatMap fun d => if d = (s, 0) then seqTargets p s l n else [d] := by
  unfold Patch.out Patch.reduceSeq
  simp only [h1, if_false, show ¬ (n ≤ o ∧ o < n + l.length) by omega, List.getElem?_map]
  cases (p.outs o)[k]? <;> simp

theorem flatMap_seqφ (ds : List Dest) (m : M) : (ds.map (·, m)).flatMap (seqφ p s l n) =
    (ds.flatMap fun d => if d = (s, 0) then seqTargets p s l n else [d]).map (·, m) := by
  induction ds with
  | nil => rfl
  | cons d ds ih =>
    simp only [List.map_cons, List.flatMap_cons, List.map_append, ih]
    congr 1
    unfold seqφ
    split <;> simp

theorem out_seqφ (o k : Nat) (h1 : o ≠ s) (h2 : o < n) (m : M) :
    ((p.out o k).map (·, m)).flatMap (seqφ p s l n) = ((p.reduceSeq s l n).out o k).map (·, m) := by
  rw [flatMap_seqφ, reduceSeq_out o k h1 h2]

/-- for one outlet -/
def target (p : Patch) (s n k : Nat) : Option Cast → List Dest
  | none => p.out s k
  | some _ => [(n + k, 0)]

/-- `seqTargets` for the outlets from `k` on -/
def targets (p : Patch) (s n : Nat) : Nat → List (Option Cast) → List Dest
  | _, [] => []
  | k, c :: cs => targets p s n (k + 1) cs ++ target p s n k c

theorem targets_aux (l : List (Option Cast)) (k : Nat) :
    ((List.range l.length).reverse.flatMap fun i =>
      match l[i]? with
      | some (some _) => [(n + (k + i), 0)]
      | some none => p.out s (k + i)
      | none => []) = targets p s n k l := by
  induction l generalizing k with
  | nil => rfl
  | cons c cs ih =>
    rw [List.length_cons, List.range_succ_eq_map, List.reverse_cons, List.flatMap_append, targets, ← ih (k + 1)]
    congr 1
    · rw [← List.map_reverse, List.flatMap_map]
      refine List.flatMap_congr fun i _ => ?_
      simp only [List.getElem?_cons_succ, Nat.succ_eq_add_one]
      rw [show k + (i + 1) = k + 1 + i by omega]
    · cases c <;> simp [target]

theorem seqTargets_eq : seqTargets p s l n = targets p s n 0 l := by
  rw [← targets_aux, seqTargets]
  refine List.flatMap_congr fun i _ => ?_
  rw [Nat.zero_add]
  rfl

theorem mem_trigger {E : Env σ M} {out : Nat → List Dest} {m : M} {k : Nat} {cs : List (Option Cast)} {e : Dest × M}
    (h : e ∈ trigger E out m k cs) : ∃ j, e.1 ∈ out j := by
  induction cs generalizing k with
  | nil => simp [trigger] at h
  | cons c cs ih =>
    rw [trigger, List.mem_append] at h
    rcases h with h | h
    · exact ih h
    · cases c with
      | none =>
        obtain ⟨d, hd, rfl⟩ := List.mem_map.mp h
        exact ⟨k, hd⟩
      | some c =>
        rw [sendCast] at h
        cases hc : E.cast c m with
        | none => rw [hc] at h; simp at h
        | some m' =>
          rw [hc] at h
          obtain ⟨d, hd, rfl⟩ := List.mem_map.mp h
          exact ⟨k, hd⟩

theorem trigger_flatMap (E : Env σ M) (out out' : Nat → List Dest) (m : M) (φ : Dest × M → List (Dest × M))
    (h : ∀ k m, ((out k).map (·, m)).flatMap φ = (out' k).map (·, m)) (k : Nat) (cs : List (Option Cast)) :
    (trigger E out m k cs).flatMap φ = trigger E out' m k cs := by
  induction cs generalizing k with
  | nil => rfl
  | cons c cs ih =>
    rw [trigger, trigger, List.flatMap_append, ih]
    congr 1
    cases c with
    | none => exact h k m
    | some c =>
      rw [sendCast, sendCast]
      cases E.cast c m with
      | none => rfl
      | some m' => exact h k m'

theorem trigger_silent (S' : Sys σ M) (E : Env σ M) (m : M) (k : Nat) (cs : List (Option Cast))
    (h : ∀ i c, cs[i]? = some (some c) → S'.node (n + (k + i), 0) m =
      match E.cast c m with
      | some m' => .fwd false ((p.out s (k + i)).map (·, m'))
      | none => .fwd false []) :
    Silent S' ((targets p s n k cs).map (·, m)) (trigger E (p.out s) m k cs) := by
  induction cs generalizing k with
  | nil => exact .refl
  | cons c cs ih =>
    rw [targets, trigger, List.map_append]
    refine .append (ih (k + 1) fun i c hc => ?_) ?_
    · rw [show k + 1 + i = k + (i + 1) by omega]
      exact h (i + 1) c (by simpa using hc)
    · cases c with
      | none => exact .refl
      | some c =>
        have := h 0 c rfl
        rw [Nat.add_zero] at this
        rw [target, sendCast]
        simp only [List.map_cons, List.map_nil]
        cases hc : E.cast c m with
        | none => rw [hc] at this; exact .expand this
        | some m' => rw [hc] at this; exact .expand this

theorem reduceSeq_kind_old (o : Nat) (h1 : o ≠ s) (h2 : o < n) : (p.reduceSeq s l n).kind o = p.kind o := by
  unfold Patch.reduceSeq
  simp only [h1, if_false, show ¬ (n ≤ o ∧ o < n + l.length) by omega]

theorem reduceSeq_inline (wf : WF p n) (hs : p.kind s = .seq l) (hsn : s < n) (order : Nat → List Nat)
    (ho : ∀ name, ∀ r ∈ order name, r ∈ p.recvs name) (E : Env σ M) :
    Inline (p.means order E) ((p.reduceSeq s l n).means order E) (fun x => x.1.1 < n ∧ (x.1.1 = s → x.1.2 = 0))
      (seqφ p s l n) fun x => if x.1.1 = s then 1 else 0 := by
  have hP : ∀ (o k : Nat) (m : M), ∀ e ∈ p.out o k, ((e, m) : Dest × M).1.1 < n ∧ (((e, m) : Dest × M).1.1 = s → ((e, m) : Dest × M).1.2 = 0) := by
    intro o k m e he
    obtain ⟨ds, h1, h2⟩ := mem_out he
    have := wf.dest o ds h1 e h2
    exact ⟨this.1, fun h => this.2.1 l (h ▸ hs)⟩
  have hP' : ∀ (o k : Nat) (m : M), ∀ e ∈ (p.out o k).map (·, m), e.1.1 < n ∧ (e.1.1 = s → e.1.2 = 0) := by
    intro o k m e he
    obtain ⟨d, hd, rfl⟩ := List.mem_map.mp he
    exact hP o k m d hd
  have hout := fun o k h1 h2 (m : M) => out_seqφ (p := p) (n := n) (s := s) (l := l) o k h1 h2 m
  refine ⟨fun x a hp hn => ?_, fun x v ls hp hn => ?_⟩
  · have hk : p.kind x.1.1 = .obj := by
      simp only [Patch.means] at hn
      split at hn <;> first | assumption | (simp at hn; done) | (split at hn <;> simp at hn)
    have hne : x.1.1 ≠ s := by rintro h; rw [h, hs] at hk; simp at hk
    refine ⟨if_neg fun h => hne (by rw [h]), ?_, Act.uses_all (fun k m => ⟨hP _ _ m, hout _ k hne hp.1 m⟩) a⟩
    rw [← hn]
    simp only [Patch.means, reduceSeq_kind_old _ hne hp.1, hk]
  · by_cases hne : x.1.1 = s
    · have hx : x.1 = (s, 0) := Prod.ext hne (hp.2 hne)
      simp only [Patch.means, hne, hs, Node.fwd.injEq] at hn
      obtain ⟨rfl, rfl⟩ := hn
      have hmem : ∀ e ∈ trigger E (p.out s) x.2 0 l, (e.1.1 < n ∧ (e.1.1 = s → e.1.2 = 0)) ∧ e.1.1 ≠ s := by
        intro e he
        obtain ⟨j, hj⟩ := mem_trigger he
        refine ⟨hP s j e.2 e.1 hj, fun h => ?_⟩
        obtain ⟨rank, hr⟩ := wf.acyclic
        obtain ⟨ds, h1, h2⟩ := mem_out hj
        have := hr s l hs ds h1 e.1 h2 l (h ▸ hs)
        rw [h] at this
        omega
      refine ⟨fun e he => (hmem e he).1, Or.inr ⟨rfl, ?_, fun e he => ?_⟩⟩
      · have h1 : (trigger E (p.out s) x.2 0 l).flatMap (seqφ p s l n) = trigger E (p.out s) x.2 0 l := by
          rw [List.flatMap_congr (g := fun e => [e]) fun e he => show seqφ p s l n e = [e] from if_neg fun h => (hmem e he).2 (by rw [h])]
          simp
        rw [h1, seqφ, if_pos hx, seqTargets_eq]
        refine trigger_silent _ E x.2 0 l fun i c hc => ?_
        have hi : i < l.length := (List.getElem?_eq_some_iff.mp hc).1
        have hk : (p.reduceSeq s l n).kind (n + (0 + i)) = .cast c := by
          unfold Patch.reduceSeq castKind
          simp only [show n + (0 + i) ≠ s by omega, if_false, show n ≤ n + (0 + i) ∧ n + (0 + i) < n + l.length by omega,
            if_true, and_self, show n + (0 + i) - n = i by omega, hc]
        have ho : (p.reduceSeq s l n).out (n + (0 + i)) 0 = p.out s (0 + i) := by
          unfold Patch.out Patch.reduceSeq
          simp only [show n + (0 + i) ≠ s by omega, if_false, show n ≤ n + (0 + i) ∧ n + (0 + i) < n + l.length by omega,
            if_true, and_self, show n + (0 + i) - n = 0 + i by omega]
          simp [Patch.out]
        simp only [Patch.means, hk, ho]
      · simp only [hne, if_true, (hmem e he).2, if_false, Nat.zero_lt_one]
    · have hφ : seqφ p s l n x = [x] := if_neg fun h => hne (by rw [h])
      have hkind := reduceSeq_kind_old (p := p) (l := l) _ hne hp.1
      have self : ∀ ls' : List (Dest × M), (∀ e ∈ ls', e.1.1 < n ∧ (e.1.1 = s → e.1.2 = 0)) →
          ((p.reduceSeq s l n).means order E).node x.1 x.2 = .fwd v (ls'.flatMap (seqφ p s l n)) →
          (∀ e ∈ ls', e.1.1 < n ∧ (e.1.1 = s → e.1.2 = 0)) ∧
          ((seqφ p s l n x = [x] ∧ ∃ l', ((p.reduceSeq s l n).means order E).node x.1 x.2 = .fwd v l' ∧
            Silent ((p.reduceSeq s l n).means order E) l' (ls'.flatMap (seqφ p s l n))) ∨
          (v = false ∧ Silent ((p.reduceSeq s l n).means order E) (seqφ p s l n x) (ls'.flatMap (seqφ p s l n)) ∧
            ∀ e ∈ ls', (if e.1.1 = s then 1 else 0) < if x.1.1 = s then 1 else 0)) :=
        fun ls' h1 h2 => ⟨h1, Or.inl ⟨hφ, _, h2, .refl⟩⟩
      simp only [Patch.means] at hn
      generalize hk : p.kind x.1.1 = kk at hn
      match kk, hk with
      | .obj, hk => simp at hn
      | .seq l', hk =>
        simp only [Node.fwd.injEq] at hn
        obtain ⟨rfl, rfl⟩ := hn
        refine self _ (fun e he => ?_) ?_
        · obtain ⟨j, hj⟩ := mem_trigger he
          exact hP _ j e.2 e.1 hj
        · simp only [Patch.means, hkind, hk, Node.fwd.injEq, true_and]
          exact (trigger_flatMap E _ _ x.2 _ (fun k m => hout _ k hne hp.1 m) 0 l').symm
      | .cast c, hk =>
        simp only at hn
        cases hc : E.cast c x.2 with
        | none =>
          rw [hc] at hn
          simp only [Node.fwd.injEq] at hn
          obtain ⟨rfl, rfl⟩ := hn
          refine self _ (by simp) ?_
          simp only [Patch.means, hkind, hk, hc, List.flatMap_nil]
        | some m' =>
          rw [hc] at hn
          simp only [Node.fwd.injEq] at hn
          obtain ⟨rfl, rfl⟩ := hn
          refine self _ (hP' _ _ _) ?_
          simp only [Patch.means, hkind, hk, hc, hout _ _ hne hp.1]
      | .graph ins, hk =>
        simp only at hn
        cases hi : ins[x.1.2]? with
        | none =>
          rw [hi] at hn
          simp only [Node.fwd.injEq] at hn
          obtain ⟨rfl, rfl⟩ := hn
          refine self _ (by simp) ?_
          simp only [Patch.means, hkind, hk, hi, List.flatMap_nil]
        | some i =>
          rw [hi] at hn
          simp only [Node.fwd.injEq] at hn
          obtain ⟨rfl, rfl⟩ := hn
          have hg := wf.graph _ _ hk i (List.mem_of_getElem? hi)
          refine self _ (hP' _ _ _) ?_
          simp only [Patch.means, hkind, hk, hi]
          rw [hout i 0 (by rintro rfl; rw [hs] at hg; simp at hg) hg.1]
      | .outlet g k, hk =>
        simp only [Node.fwd.injEq] at hn
        obtain ⟨rfl, rfl⟩ := hn
        obtain ⟨hg, ins, hg2⟩ := wf.outlet _ _ _ hk
        refine self _ (hP' _ _ _) ?_
        simp only [Patch.means, hkind, hk]
        rw [hout g k (by rintro rfl; rw [hs] at hg2; simp at hg2) hg]
      | .send name, hk =>
        simp only [Node.fwd.injEq] at hn
        obtain ⟨rfl, rfl⟩ := hn
        refine self _ (fun e he => ?_) ?_
        · obtain ⟨r, -, hr⟩ := List.mem_flatMap.mp he
          exact hP' _ _ _ e hr
        · simp only [Patch.means, hkind, hk, Node.fwd.injEq, true_and, List.flatMap_assoc]
          refine List.flatMap_congr fun r hr => ?_
          have hg := wf.recv _ r (ho name r hr)
          rw [hout r 0 (by rintro rfl; rw [hs] at hg; simp at hg) hg.1]
      | .recv, hk =>
        simp only [Node.fwd.injEq] at hn
        obtain ⟨rfl, rfl⟩ := hn
        refine self _ (by simp) ?_
        simp only [Patch.means, hkind, hk, List.flatMap_nil]
      | .inlet, hk =>
        simp only [Node.fwd.injEq] at hn
        obtain ⟨rfl, rfl⟩ := hn
        refine self _ (by simp) ?_
        simp only [Patch.means, hkind, hk, List.flatMap_nil]

theorem mem_seqTargets {d : Dest} (h : d ∈ seqTargets p s l n) :
    (∃ i < l.length, d = (n + i, 0)) ∨ ∃ i, d ∈ p.out s i := by
  unfold seqTargets at h
  obtain ⟨i, hi, h⟩ := List.mem_flatMap.mp h
  have hi : i < l.length := by simpa using hi
  split at h
  · exact Or.inl ⟨i, hi, by simpa using h⟩
  · exact Or.inr ⟨i, h⟩
  · simp at h

theorem castKind_cases (l : List (Option Cast)) (i : Nat) : (∃ c, castKind l i = .cast c) ∨ castKind l i = .inlet := by
  unfold castKind
  split
  · exact Or.inl ⟨_, rfl⟩
  · exact Or.inr rfl

/-- the kind of an object after the reduction -/
theorem reduceSeq_kind (o : Nat) : (o = s ∧ (p.reduceSeq s l n).kind o = .inlet) ∨
    (o ≠ s ∧ n ≤ o ∧ ((∃ c, (p.reduceSeq s l n).kind o = .cast c) ∨ (p.reduceSeq s l n).kind o = .inlet)) ∨
    (o ≠ s ∧ ¬ (n ≤ o ∧ o < n + l.length) ∧ (p.reduceSeq s l n).kind o = p.kind o) := by
  by_cases h1 : o = s
  · exact Or.inl ⟨h1, by simp [Patch.reduceSeq, h1]⟩
  · by_cases h2 : n ≤ o ∧ o < n + l.length
    · refine Or.inr (Or.inl ⟨h1, h2.1, ?_⟩)
      have : (p.reduceSeq s l n).kind o = castKind l (o - n) := by simp [Patch.reduceSeq, h1, h2]
      rw [this]
      exact castKind_cases l _
    · exact Or.inr (Or.inr ⟨h1, h2, by simp only [Patch.reduceSeq, h1, h2, if_false]⟩)

/-- a sequence that remains -/
theorem reduceSeq_seq {o : Nat} {l' : List (Option Cast)} (h : (p.reduceSeq s l n).kind o = .seq l') :
    o ≠ s ∧ ¬ (n ≤ o ∧ o < n + l.length) ∧ p.kind o = .seq l' := by
  rcases reduceSeq_kind (p := p) (n := n) (s := s) (l := l) o with ⟨-, h1⟩ | ⟨-, -, ⟨c, h1⟩ | h1⟩ | ⟨h1, h2, h3⟩
  · rw [h] at h1; simp at h1
  · rw [h] at h1; simp at h1
  · rw [h] at h1; simp at h1
  · exact ⟨h1, h2, h3 ▸ h⟩

/-- the destinations after the reduction -/
theorem reduceSeq_dest (wf : WF p n) (hs : p.kind s = .seq l) {o : Nat} {ds : List Dest} {d : Dest}
    (h1 : ds ∈ (p.reduceSeq s l n).outs o) (h2 : d ∈ ds) :
    (n ≤ d.1 ∧ d.1 < n + l.length) ∨ (d.1 < n ∧ d.1 ≠ s ∧ ((∃ i, d ∈ p.out s i) ∧ (n ≤ o ∧ o < n + l.length ∨ ∃ ds ∈ p.outs o, (s, 0) ∈ ds) ∨
      ∃ ds ∈ p.outs o, d ∈ ds)) := by
  have hself : ∀ i, d ∈ p.out s i → d.1 < n ∧ d.1 ≠ s := by
    intro i hi
    obtain ⟨ds, k1, k2⟩ := mem_out hi
    refine ⟨(wf.dest s ds k1 d k2).1, fun e => ?_⟩
    obtain ⟨rank, hr⟩ := wf.acyclic
    have := hr s l hs ds k1 d k2 l (e ▸ hs)
    rw [e] at this
    omega
  by_cases e1 : o = s
  · simp [Patch.reduceSeq, e1] at h1
  · by_cases e2 : n ≤ o ∧ o < n + l.length
    · simp only [Patch.reduceSeq, e1, e2, if_false, and_self, if_true, List.mem_singleton] at h1
      subst h1
      exact Or.inr ⟨(hself _ h2).1, (hself _ h2).2, Or.inl ⟨⟨_, h2⟩, Or.inl e2⟩⟩
    · simp only [Patch.reduceSeq, e1, e2, if_false, List.mem_map] at h1
      obtain ⟨ds0, k1, rfl⟩ := h1
      obtain ⟨d0, k2, k3⟩ := List.mem_flatMap.mp h2
      split at k3
      · rename_i hd0
        rcases mem_seqTargets k3 with ⟨i, hi, rfl⟩ | ⟨i, hi⟩
        · exact Or.inl ⟨by simp, by simpa using hi⟩
        · exact Or.inr ⟨(hself _ hi).1, (hself _ hi).2, Or.inl ⟨⟨i, hi⟩, Or.inr ⟨ds0, k1, hd0 ▸ k2⟩⟩⟩
      · rename_i hd0
        have hd : d = d0 := by simpa using k3
        subst hd
        have := wf.dest o ds0 k1 d k2
        exact Or.inr ⟨this.1, fun e => hd0 (Prod.ext e (this.2.1 l (e ▸ hs))), Or.inr ⟨ds0, k1, k2⟩⟩

theorem reduceSeq_wf (wf : WF p n) (hs : p.kind s = .seq l) (hsn : s < n) : WF (p.reduceSeq s l n) (n + l.length) := by
  have old : ∀ o, o < n → o ≠ s → (p.reduceSeq s l n).kind o = p.kind o := fun o h1 h2 => reduceSeq_kind_old o h2 h1
  refine ⟨fun o ds h1 d h2 => ?_, fun o ins h i hi => ?_, fun o g k h => ?_, fun name r hr => ?_, wf.disjoint, ?_⟩
  · rcases reduceSeq_dest wf hs h1 h2 with ⟨k1, k2⟩ | ⟨k1, k2, k3⟩
    · refine ⟨k2, fun l' hl => absurd ⟨k1, k2⟩ (reduceSeq_seq hl).2.1, fun hl => ?_⟩
      rcases reduceSeq_kind (p := p) (n := n) (s := s) (l := l) d.1 with ⟨-, h1⟩ | ⟨-, -, ⟨c, h1⟩ | h1⟩ | ⟨-, h2, -⟩
      · rw [hl] at h1; simp at h1
      · rw [hl] at h1; simp at h1
      · rw [hl] at h1; simp at h1
      · exact h2 ⟨k1, k2⟩
    · have key : (∀ l, p.kind d.1 = .seq l → d.2 = 0) ∧ p.kind d.1 ≠ .recv := by
        rcases k3 with ⟨⟨i, hi⟩, -⟩ | ⟨ds, k3, k4⟩
        · obtain ⟨ds, k3, k4⟩ := mem_out hi
          exact (wf.dest s ds k3 d k4).2
        · exact (wf.dest o ds k3 d k4).2
      exact ⟨by omega, fun l' hl => key.1 l' (reduceSeq_seq hl).2.2, by rw [old _ k1 k2]; exact key.2⟩
  · rcases reduceSeq_kind (p := p) (n := n) (s := s) (l := l) o with ⟨-, h1⟩ | ⟨-, -, ⟨c, h1⟩ | h1⟩ | ⟨h1, h2, h3⟩
    · rw [h] at h1; simp at h1
    · rw [h] at h1; simp at h1
    · rw [h] at h1; simp at h1
    · have := wf.graph o ins (h3 ▸ h) i hi
      refine ⟨by omega, ?_⟩
      rw [old i this.1 (by rintro rfl; rw [hs] at this; simp at this)]
      exact this.2
  · rcases reduceSeq_kind (p := p) (n := n) (s := s) (l := l) o with ⟨-, h1⟩ | ⟨-, -, ⟨c, h1⟩ | h1⟩ | ⟨h1, h2, h3⟩
    · rw [h] at h1; simp at h1
    · rw [h] at h1; simp at h1
    · rw [h] at h1; simp at h1
    · obtain ⟨k1, ins, k2⟩ := wf.outlet o g k (h3 ▸ h)
      exact ⟨by omega, ins, by rw [old g k1 (by rintro rfl; rw [hs] at k2; simp at k2)]; exact k2⟩
  · have := wf.recv name r hr
    exact ⟨by omega, by rw [old r this.1 (by rintro rfl; rw [hs] at this; simp at this)]; exact this.2⟩
  · obtain ⟨rank, hr⟩ := wf.acyclic
    refine ⟨rank, fun s' l' h ds h1 d h2 l'' h3 => ?_⟩
    have hk := reduceSeq_seq h
    have hd := reduceSeq_seq h3
    rcases reduceSeq_dest wf hs h1 h2 with ⟨k1, k2⟩ | ⟨k1, k2, k3⟩
    · exact absurd ⟨k1, k2⟩ hd.2.1
    · rcases k3 with ⟨⟨i, hi⟩, k4⟩ | ⟨ds', k3, k4⟩
      · obtain ⟨ds2, k5, k6⟩ := mem_out hi
        have e1 := hr s l hs ds2 k5 d k6 l'' hd.2.2
        rcases k4 with k4 | ⟨ds3, k7, k8⟩
        · exact absurd k4 hk.2.1
        · have e2 : rank s < rank s' := hr s' l' hk.2.2 ds3 k7 (s, 0) k8 l hs
          omega
      · exact hr s' l' hk.2.2 ds' k3 d k4 l'' hd.2.2

end Seq

/-- where messages come from: an outlet of an object, or a name (from outside, `hv_sendMessageToReceiver`) -/
inductive Src (M : Type)
  | outlet (o k : Nat) (m : M)
  | name (name : Nat) (m : M)

/-- the calls in a patch -/
def Src.calls (p : Patch) (order : Nat → List Nat) : Src M → List (Dest × M)
  | .outlet o k m => (p.out o k).map (·, m)
  | .name nm m => (order nm).flatMap fun r => (p.out r 0).map (·, m)

/-- an ordinary object, or a name -/
def Src.Valid (p : Patch) (n : Nat) : Src M → Prop
  | .outlet o k _ => o < n ∧ p.kind o = .obj ∧ k < (p.outs o).length
  | .name _ _ => True

/-- what later stages keep -/
structure Keeps (p : Patch) (n : Nat) (p' : Patch) (n' : Nat) : Prop where
  le : n ≤ n'
  obj : ∀ o < n', p'.kind o = .obj → o < n ∧ p.kind o = .obj
  kind : ∀ o < n, (∀ l, p.kind o ≠ .seq l) → p'.kind o = p.kind o
  len : ∀ o < n, p.kind o = .obj → (p'.outs o).length = (p.outs o).length

theorem Keeps.refl (p : Patch) (n : Nat) : Keeps p n p n := ⟨Nat.le_refl _, fun _ h e => ⟨h, e⟩, fun _ _ _ => rfl, fun _ _ _ => rfl⟩

theorem Keeps.trans {p p' p'' : Patch} {n n' n'' : Nat} (h : Keeps p n p' n') (h' : Keeps p' n' p'' n'') : Keeps p n p'' n'' := by
  refine ⟨Nat.le_trans h.le h'.le, fun o ho e => ?_, fun o ho e => ?_, fun o ho e => ?_⟩
  · obtain ⟨h1, h2⟩ := h'.obj o ho e
    exact h.obj o h1 h2
  · rw [h'.kind o (Nat.lt_of_lt_of_le ho h.le) fun l => by rw [h.kind o ho e]; exact e l, h.kind o ho e]
  · have hk := h.kind o ho fun l => by rw [e]; simp
    rw [h'.len o (Nat.lt_of_lt_of_le ho h.le) (hk.trans e), h.len o ho e]

theorem Src.Valid.keeps {p p' : Patch} {n n' : Nat} (h : Keeps p n p' n') {x : Src M} (hx : x.Valid p n) : x.Valid p' n' :=
  match x, hx with
  | .outlet _ _ _, ⟨h1, h2, h3⟩ => ⟨Nat.lt_of_lt_of_le h1 h.le, (h.kind _ h1 fun l => by rw [h2]; simp).trans h2, by rw [h.len _ h1 h2]; exact h3⟩
  | .name _ _, _ => trivial

/-- two patches do the same with all messages -/
def SamePatch (p : Patch) (n : Nat) (order : Nat → List Nat) (p' : Patch) (order' : Nat → List Nat) (E : Env σ M) : Prop :=
  ∀ src : List (Src M), (∀ x ∈ src, x.Valid p n) → ∀ (s s' : σ) (t : List (Dest × M)),
    Big (p.means order E) (.all (src.flatMap (·.calls p order))) s s' t ↔
    Big (p'.means order' E) (.all (src.flatMap (·.calls p' order'))) s s' t

theorem reduceSeq_same {p : Patch} {n s : Nat} {l : List (Option Cast)} (wf : WF p n) (hs : p.kind s = .seq l) (hsn : s < n)
    (order : Nat → List Nat) (ho : ∀ name, ∀ r ∈ order name, r ∈ p.recvs name) (E : Env σ M) :
    SamePatch p n order (p.reduceSeq s l n) order E := by
  intro src hv s0 s1 t
  have hone : ∀ x ∈ src, (x.calls p order).flatMap (seqφ p s l n) = x.calls (p.reduceSeq s l n) order := by
    intro x hx
    match x, hv x hx with
    | .outlet o k m, hx =>
      exact out_seqφ o k (by rintro rfl; have := hx.2.1; rw [hs] at this; simp at this) hx.1 m
    | .name nm m, _ =>
      simp only [Src.calls, List.flatMap_assoc]
      refine List.flatMap_congr fun r hr => ?_
      have hg := wf.recv _ r (ho nm r hr)
      exact out_seqφ r 0 (by rintro rfl; rw [hs] at hg; simp at hg) hg.1 m
  rw [(reduceSeq_inline wf hs hsn order ho E).correct _ ?_, List.flatMap_assoc, List.flatMap_congr hone]
  intro e he
  obtain ⟨x, hx, he⟩ := List.mem_flatMap.mp he
  have key : ∀ o k (m : M), e ∈ (p.out o k).map (·, m) → e.1.1 < n ∧ (e.1.1 = s → e.1.2 = 0) := by
    intro o k m he
    obtain ⟨d, hd, rfl⟩ := List.mem_map.mp he
    obtain ⟨ds, k1, k2⟩ := mem_out hd
    have := wf.dest o ds k1 d k2
    exact ⟨this.1, fun h => this.2.1 l (h ▸ hs)⟩
  match x, he with
  | .outlet o k m, he => exact key o k m he
  | .name nm m, he =>
    obtain ⟨r, -, hr⟩ := List.mem_flatMap.mp he
    exact key _ _ _ hr

theorem reduceSeq_keeps {p : Patch} {n s : Nat} {l : List (Option Cast)} (hs : p.kind s = .seq l) (hsn : s < n) :
    Keeps p n (p.reduceSeq s l n) (n + l.length) := by
  refine ⟨by omega, fun o ho e => ?_, fun o ho e => ?_, fun o ho e => ?_⟩
  · rcases reduceSeq_kind (p := p) (n := n) (s := s) (l := l) o with ⟨-, h1⟩ | ⟨-, -, ⟨c, h1⟩ | h1⟩ | ⟨h1, h2, h3⟩
    · rw [e] at h1; simp at h1
    · rw [e] at h1; simp at h1
    · rw [e] at h1; simp at h1
    · exact ⟨by omega, h3 ▸ e⟩
  · exact reduceSeq_kind_old o (by rintro rfl; exact e l hs) ho
  · have : o ≠ s := by rintro rfl; rw [hs] at e; simp at e
    simp only [Patch.reduceSeq, this, if_false, show ¬ (n ≤ o ∧ o < n + l.length) by omega, List.length_map]

/-- all sequences -/
theorem reduceAll_same (p : Patch) (n : Nat) (os : List Nat) (wf : WF p n) (hos : ∀ o ∈ os, o < n)
    (order : Nat → List Nat) (ho : ∀ name, ∀ r ∈ order name, r ∈ p.recvs name) (E : Env σ M) :
    WF (p.reduceAll n os).1 (p.reduceAll n os).2 ∧ Keeps p n (p.reduceAll n os).1 (p.reduceAll n os).2 ∧
    SamePatch p n order (p.reduceAll n os).1 order E ∧
    (p.reduceAll n os).1.recvs = p.recvs ∧ (p.reduceAll n os).1.prio = p.prio ∧
    ∀ o < (p.reduceAll n os).2, ∀ l, (p.reduceAll n os).1.kind o = .seq l → o < n ∧ p.kind o = .seq l ∧ o ∉ os := by
  induction os generalizing p n with
  | nil => exact ⟨wf, .refl p n, fun _ _ _ _ _ => Iff.rfl, rfl, rfl, fun o h l e => ⟨h, e, by simp⟩⟩
  | cons o os ih =>
    have hother : (∀ l, p.kind o ≠ .seq l) → p.reduceAll n (o :: os) = p.reduceAll n os := by
      intro h
      rw [Patch.reduceAll]
      split
      · rename_i l hl; exact absurd hl (h l)
      · rfl
    by_cases hk : ∃ l, p.kind o = .seq l
    · obtain ⟨l, hl⟩ := hk
      have e : p.reduceAll n (o :: os) = (p.reduceSeq o l n).reduceAll (n + l.length) os := by
        rw [Patch.reduceAll, hl]
      rw [e]
      have hon := hos o (by simp)
      have hkeep := reduceSeq_keeps hl hon
      obtain ⟨h1, h2, h3, h4, h5, h6⟩ := ih (p.reduceSeq o l n) (n + l.length) (reduceSeq_wf wf hl hon)
        (fun x hx => by have := hos x (by simp [hx]); omega) ho
      refine ⟨h1, hkeep.trans h2, fun src hv s s' t => ?_, h4, h5, fun x hx l' e => ?_⟩
      · rw [reduceSeq_same wf hl hon order ho E src hv s s' t]
        exact h3 src (fun x hx => (hv x hx).keeps hkeep) s s' t
      · obtain ⟨k1, k2, k3⟩ := h6 x hx l' e
        obtain ⟨k4, k5, k6⟩ := reduceSeq_seq k2
        exact ⟨by omega, k6, by simp [k3, k4]⟩
    · have hk : ∀ l, p.kind o ≠ .seq l := fun l h => hk ⟨l, h⟩
      rw [hother hk]
      obtain ⟨h1, h2, h3, h4, h5, h6⟩ := ih p n wf (fun x hx => hos x (by simp [hx])) ho
      refine ⟨h1, h2, h3, h4, h5, fun x hx l' e => ?_⟩
      obtain ⟨k1, k2, k3⟩ := h6 x hx l' e
      exact ⟨k1, k2, by simp only [List.mem_cons, not_or]; exact ⟨fun h => hk l' (h ▸ k2), k3⟩⟩

/-! ## Grouping of receivers -/

section Group

variable {p : Patch} {n name : Nat}

theorem groupName_kind {o : Nat} (h : o < n) : (p.groupName name n).kind o = p.kind o := by
  simp [Patch.groupName, Nat.ne_of_lt h]

theorem groupName_out {o : Nat} (k : Nat) (h : o < n) (h' : o ∉ p.recvs name) : (p.groupName name n).out o k = p.out o k := by
  simp [Patch.out, Patch.groupName, Nat.ne_of_lt h, h']

theorem groupName_out_new : (p.groupName name n).out n 0 = (p.sorted name).flatMap fun q => p.out q 0 := by
  simp [Patch.out, Patch.groupName]

theorem groupName_wf (wf : WF p n) : WF (p.groupName name n) (n + 1) := by
  have hd : ∀ o, ∀ ds ∈ (p.groupName name n).outs o, ∀ d ∈ ds, ∃ o', ∃ ds' ∈ p.outs o', d ∈ ds' ∧ (o ≠ n → o' = o) := by
    intro o ds h1 d h2
    simp only [Patch.groupName] at h1
    split at h1
    · rename_i e
      rw [List.mem_singleton.mp h1] at h2
      obtain ⟨q, -, hq⟩ := List.mem_flatMap.mp h2
      obtain ⟨ds', k1, k2⟩ := mem_out hq
      exact ⟨q, ds', k1, k2, fun h => absurd e h⟩
    · split at h1
      · simp at h1
      · exact ⟨o, ds, h1, h2, fun _ => rfl⟩
  have hkind : ∀ o, o ≠ n → (p.groupName name n).kind o = p.kind o := fun o h => by simp [Patch.groupName, h]
  have hn : (p.groupName name n).kind n = .recv := by simp [Patch.groupName]
  refine ⟨fun o ds h1 d h2 => ?_, fun o ins h i hi => ?_, fun o g k h => ?_, fun nm r hr => ?_, fun a b r ha hb => ?_, ?_⟩
  · obtain ⟨o', ds', k1, k2, -⟩ := hd o ds h1 d h2
    have := wf.dest o' ds' k1 d k2
    exact ⟨by omega, fun l hl => this.2.1 l (by rw [← hl, groupName_kind this.1]), by rw [groupName_kind this.1]; exact this.2.2⟩
  · have ho : o ≠ n := by rintro rfl; rw [hn] at h; simp at h
    have := wf.graph o ins (hkind o ho ▸ h) i hi
    exact ⟨by omega, by rw [groupName_kind this.1]; exact this.2⟩
  · have ho : o ≠ n := by rintro rfl; rw [hn] at h; simp at h
    obtain ⟨k1, ins, k2⟩ := wf.outlet o g k (hkind o ho ▸ h)
    exact ⟨by omega, ins, by rw [groupName_kind k1]; exact k2⟩
  · simp only [Patch.groupName] at hr
    split at hr
    · rw [List.mem_singleton.mp hr]
      exact ⟨by omega, hn⟩
    · have := wf.recv nm r hr
      exact ⟨by omega, by rw [groupName_kind this.1]; exact this.2⟩
  · simp only [Patch.groupName] at ha hb
    split at ha <;> split at hb
    · rename_i h1 h2; rw [h1, h2]
    · have := (wf.recv b r hb).1
      rw [List.mem_singleton.mp ha] at this
      omega
    · have := (wf.recv a r ha).1
      rw [List.mem_singleton.mp hb] at this
      omega
    · exact wf.disjoint a b r ha hb
  · obtain ⟨rank, hr⟩ := wf.acyclic
    refine ⟨rank, fun s l h ds h1 d h2 l' h3 => ?_⟩
    have hs : s ≠ n := by rintro rfl; rw [hn] at h; simp at h
    have hdn : d.1 ≠ n := by intro e; rw [e, hn] at h3; simp at h3
    obtain ⟨o', ds', k1, k2, k3⟩ := hd s ds h1 d h2
    rw [k3 hs] at k1
    exact hr s l (hkind s hs ▸ h) ds' k1 d k2 l' (hkind _ hdn ▸ h3)

theorem groupName_keeps (wf : WF p n) : Keeps p n (p.groupName name n) (n + 1) := by
  have hn : (p.groupName name n).kind n = .recv := by simp [Patch.groupName]
  refine ⟨by omega, fun o ho e => ?_, fun o ho _ => groupName_kind ho, fun o ho e => ?_⟩
  · have : o ≠ n := by rintro rfl; rw [hn] at e; simp at e
    have ho : o < n := by omega
    exact ⟨ho, groupName_kind ho ▸ e⟩
  · have : o ∉ p.recvs name := fun h => by rw [(wf.recv name o h).2] at e; simp at e
    simp [Patch.groupName, Nat.ne_of_lt ho, this]

/-- the new order -/
def newOrder (order : Nat → List Nat) (name n : Nat) : Nat → List Nat := fun x => if x = name then [n] else order x

theorem groupName_fire {order : Nat → List Nat} (ho : ∀ nm, FireOrder p nm (order nm)) (nm : Nat) :
    FireOrder (p.groupName name n) nm (newOrder order name n nm) := by
  unfold newOrder
  split
  · rename_i h
    have : (p.groupName name n).recvs nm = [n] := by simp [Patch.groupName, h]
    exact ⟨by rw [this], by simp, fun x => by rw [this]⟩
  · rename_i h
    have : (p.groupName name n).recvs nm = p.recvs nm := by simp [Patch.groupName, h]
    exact ⟨by rw [this]; exact (ho nm).all, (ho nm).sorted, fun x => by rw [this]; exact (ho nm).stable x⟩

theorem groupName_send (wf : WF p n) {order : Nat → List Nat} (ho : ∀ nm, FireOrder p nm (order nm)) (nm : Nat) (m : M) :
    ((newOrder order name n nm).flatMap fun r => ((p.groupName name n).out r 0).map (·, m)) =
    (order nm).flatMap fun r => (p.out r 0).map (·, m) := by
  unfold newOrder
  split
  · rename_i h
    subst h
    rw [(ho nm).unique (sorted_fireOrder p nm)]
    simp only [List.flatMap_cons, List.flatMap_nil, List.append_nil, groupName_out_new, List.map_flatMap]
  · rename_i h
    refine List.flatMap_congr fun r hr => ?_
    have hr := (ho nm).all.mem_iff.mp hr
    rw [groupName_out 0 (wf.recv nm r hr).1 fun h' => h (wf.disjoint _ _ r hr h')]

theorem groupName_node (wf : WF p n) {order : Nat → List Nat} (ho : ∀ nm, FireOrder p nm (order nm)) (E : Env σ M)
    (x : Dest × M) (hx : x.1.1 < n) :
    ((p.groupName name n).means (newOrder order name n) E).node x.1 x.2 = (p.means order E).node x.1 x.2 := by
  have nr : ∀ o, p.kind o ≠ .recv → o ∉ p.recvs name := fun o h h' => h (wf.recv name o h').2
  simp only [Patch.means, groupName_kind hx]
  generalize hk : p.kind x.1.1 = kk
  match kk, hk with
  | .obj, hk => rfl
  | .seq l', hk =>
    simp only
    congr 2
    funext k
    exact groupName_out k hx (nr _ (by rw [hk]; simp))
  | .cast c, hk => simp only [groupName_out 0 hx (nr _ (by rw [hk]; simp))]
  | .graph ins, hk =>
    simp only
    cases hi : ins[x.1.2]? with
    | none => rfl
    | some i =>
      have hg := wf.graph _ _ hk i (List.mem_of_getElem? hi)
      simp only [groupName_out 0 hg.1 (nr _ (by rw [hg.2]; simp))]
  | .outlet g k, hk =>
    obtain ⟨hg, ins, hg2⟩ := wf.outlet _ _ _ hk
    simp only [groupName_out k hg (nr _ (by rw [hg2]; simp))]
  | .send nm, hk => simp only [groupName_send wf ho]
  | .recv, hk => rfl
  | .inlet, hk => rfl

theorem groupName_same (wf : WF p n) {order : Nat → List Nat} (ho : ∀ nm, FireOrder p nm (order nm)) (E : Env σ M) :
    SamePatch p n order (p.groupName name n) (newOrder order name n) E := by
  intro src hv s s' t
  have nr : ∀ o, p.kind o ≠ .recv → o ∉ p.recvs name := fun o h h' => h (wf.recv name o h').2
  have hP : ∀ (o k : Nat) (m : M), ∀ e ∈ (p.out o k).map (·, m), e.1.1 < n := by
    intro o k m e he
    obtain ⟨d, hd, rfl⟩ := List.mem_map.mp he
    obtain ⟨ds, k1, k2⟩ := mem_out hd
    exact (wf.dest o ds k1 d k2).1
  have hinl : Inline (p.means order E) ((p.groupName name n).means (newOrder order name n) E) (fun x => x.1.1 < n)
      (fun x => [x]) fun _ => 0 := by
    refine ⟨fun x a hp hn => ⟨rfl, by rw [groupName_node wf ho E x hp, hn], Act.uses_all (fun k m => ?_) a⟩,
      fun x v l hp hn => ⟨?_, Or.inl ⟨rfl, l, by rw [groupName_node wf ho E x hp, hn], by simpa using .refl⟩⟩⟩
    · have hk : p.kind x.1.1 = .obj := by
        simp only [Patch.means] at hn
        split at hn <;> first | assumption | (simp at hn; done) | (split at hn <;> simp at hn)
      refine ⟨fun e he => hP x.1.1 k m (e, m) (List.mem_map.mpr ⟨e, he, rfl⟩), ?_⟩
      simp [Patch.means, groupName_out k hp (nr _ (by rw [hk]; simp))]
    · intro e he
      simp only [Patch.means] at hn
      split at hn
      · simp at hn
      · simp only [Node.fwd.injEq] at hn
        rw [← hn.2] at he
        obtain ⟨j, hj⟩ := mem_trigger he
        exact hP _ j e.2 e (List.mem_map.mpr ⟨e.1, hj, rfl⟩)
      · split at hn <;> (simp only [Node.fwd.injEq] at hn; rw [← hn.2] at he)
        · exact hP _ _ _ e he
        · simp at he
      · split at hn <;> (simp only [Node.fwd.injEq] at hn; rw [← hn.2] at he)
        · exact hP _ _ _ e he
        · simp at he
      · simp only [Node.fwd.injEq] at hn
        rw [← hn.2] at he
        exact hP _ _ _ e he
      · simp only [Node.fwd.injEq] at hn
        rw [← hn.2] at he
        obtain ⟨r, -, hr⟩ := List.mem_flatMap.mp he
        exact hP _ _ _ e hr
      · simp only [Node.fwd.injEq] at hn
        rw [← hn.2] at he
        simp at he
  have hone : ∀ x ∈ src, x.calls p order = x.calls (p.groupName name n) (newOrder order name n) := by
    intro x hx
    match x, hv x hx with
    | .outlet o k m, hx => exact congrArg _ (groupName_out k hx.1 (nr _ (by rw [hx.2.1]; simp))).symm
    | .name nm m, _ => exact (groupName_send wf ho nm m).symm
  rw [hinl.correct _ ?_, List.flatMap_singleton', List.flatMap_congr hone]
  intro e he
  obtain ⟨x, hx, he⟩ := List.mem_flatMap.mp he
  match x, he with
  | .outlet o k m, he => exact hP o k m e he
  | .name nm m, he =>
    obtain ⟨r, -, hr⟩ := List.mem_flatMap.mp he
    exact hP _ _ _ e hr

end Group

theorem group_same (p : Patch) (n : Nat) (names : List Nat) (wf : WF p n) (order : Nat → List Nat)
    (ho : ∀ nm, FireOrder p nm (order nm)) (E : Env σ M) :
    ∃ order', WF (p.group n names).1 (p.group n names).2 ∧ Keeps p n (p.group n names).1 (p.group n names).2 ∧
    SamePatch p n order (p.group n names).1 order' E ∧ (∀ nm, FireOrder (p.group n names).1 nm (order' nm)) ∧
    (∀ nm ∈ names, ((p.group n names).1.recvs nm).length ≤ 1) ∧
    (∀ nm, nm ∉ names → (p.group n names).1.recvs nm = p.recvs nm) ∧
    (∀ nm, (p.recvs nm).length ≤ 1 → ((p.group n names).1.recvs nm).length ≤ 1) ∧
    ∀ o < (p.group n names).2, ∀ l, (p.group n names).1.kind o = .seq l → o < n ∧ p.kind o = .seq l := by
  induction names generalizing p n order with
  | nil => exact ⟨order, wf, .refl p n, fun _ _ _ _ _ => Iff.rfl, ho, by simp, fun _ _ => rfl, fun _ h => h, fun o h l e => ⟨h, e⟩⟩
  | cons nm names ih =>
    rw [Patch.group]
    split
    · rename_i h0
      obtain ⟨order', h1, h2, h3, h4, h5, h6, h7, h8⟩ := ih p n wf order ho
      refine ⟨order', h1, h2, h3, h4, fun x hx => ?_, fun x hx => h6 x fun h => hx (by simp [h]), h7, h8⟩
      rcases List.mem_cons.mp hx with rfl | hx
      · exact h7 x (by rw [h0]; simp)
      · exact h5 x hx
    · obtain ⟨order', h1, h2, h3, h4, h5, h6, h7, h8⟩ := ih (p.groupName nm n) (n + 1) (groupName_wf wf) (newOrder order nm n)
        (groupName_fire ho)
      have hk := groupName_keeps (name := nm) wf
      have hrec : ∀ x, x ≠ nm → (p.groupName nm n).recvs x = p.recvs x := fun x h => by simp [Patch.groupName, h]
      have hrec1 : (p.groupName nm n).recvs nm = [n] := by simp [Patch.groupName]
      refine ⟨order', h1, hk.trans h2, fun src hv s s' t => ?_, h4, fun x hx => ?_, fun x hx => ?_, fun x hx => ?_, fun o hlt l e => ?_⟩
      · rw [groupName_same wf ho E src hv s s' t]
        exact h3 src (fun x hx => (hv x hx).keeps hk) s s' t
      · rcases List.mem_cons.mp hx with rfl | hx
        · exact h7 x (by rw [hrec1]; simp)
        · exact h5 x hx
      · simp only [List.mem_cons, not_or] at hx
        rw [h6 x hx.2, hrec x hx.1]
      · by_cases hn : x = nm
        · exact h7 x (by rw [hn, hrec1]; simp)
        · exact h7 x (by rw [hrec x hn]; exact hx)
      · obtain ⟨k1, k2⟩ := h8 o hlt l e
        have : o ≠ n := by rintro rfl; simp [Patch.groupName] at k2
        have ho : o < n := by omega
        exact ⟨ho, groupName_kind ho ▸ k2⟩

/-! ## Control lists -/

section Lists

variable {p : Patch}

theorem concatAll_some {f : Dest → Option (List Dest)} {ds l : List Dest} (h : concatAll f ds = some l) :
    (∀ d ∈ ds, (f d).isSome) ∧ l = ds.flatMap fun d => (f d).getD [] := by
  induction ds generalizing l with
  | nil => simp [concatAll] at h; simp [h]
  | cons d ds ih =>
    rw [concatAll] at h
    generalize hd : f d = o at h
    match o, hd with
    | none, _ => simp at h
    | some l1, hd =>
      simp only [Option.map_eq_some_iff] at h
      obtain ⟨l2, h1, rfl⟩ := h
      obtain ⟨k1, rfl⟩ := ih h1
      refine ⟨fun e he => ?_, by simp [hd]⟩
      rcases List.mem_cons.mp he with rfl | he
      · simp [hd]
      · exact k1 e he

theorem concatAll_of {f : Dest → Option (List Dest)} {ds : List Dest} (h : ∀ d ∈ ds, (f d).isSome) :
    concatAll f ds = some (ds.flatMap fun d => (f d).getD []) := by
  induction ds with
  | nil => rfl
  | cons d ds ih =>
    rw [concatAll]
    obtain ⟨l1, hd⟩ := Option.isSome_iff_exists.mp (h d (by simp))
    rw [hd]
    simp [ih fun e he => h e (by simp [he]), hd]

theorem onMessage_succ {f : Nat} {d : Dest} {l : List Dest} (h : p.onMessage f d = some l) : p.onMessage (f + 1) d = some l := by
  induction f generalizing d l with
  | zero => simp [Patch.onMessage] at h
  | succ f ih =>
    have hc : ∀ ds l, concatAll (p.onMessage f) ds = some l → concatAll (p.onMessage (f + 1)) ds = some l := by
      intro ds l h
      obtain ⟨h1, rfl⟩ := concatAll_some h
      have : ∀ d ∈ ds, p.onMessage (f + 1) d = p.onMessage f d := by
        intro d hd
        obtain ⟨l, hl⟩ := Option.isSome_iff_exists.mp (h1 d hd)
        rw [ih hl, hl]
      rw [concatAll_of fun d hd => by rw [this d hd]; exact h1 d hd]
      refine congrArg _ (List.flatMap_congr fun d hd => by rw [this d hd])
    rw [Patch.onMessage] at h ⊢
    generalize p.kind d.1 = kk at h
    match kk with
    | .graph ins =>
      simp only at h ⊢
      generalize ins[d.2]? = i at h
      match i with
      | none => simp at h
      | some i => exact hc _ _ h
    | .outlet g k => exact hc _ _ h
    | .obj => exact h
    | .seq _ => exact h
    | .cast _ => exact h
    | .inlet => exact h
    | .send _ => exact h
    | .recv => exact h

theorem onMessage_mono {f f' : Nat} (hf : f ≤ f') {d : Dest} {l : List Dest} (h : p.onMessage f d = some l) :
    p.onMessage f' d = some l := by
  induction hf with
  | refl => exact h
  | step _ ih => exact onMessage_succ ih

theorem onMessage_eq {f f' : Nat} {d : Dest} (h : (p.onMessage f d).isSome) (h' : (p.onMessage f' d).isSome) :
    p.onMessage f d = p.onMessage f' d := by
  obtain ⟨l, hl⟩ := Option.isSome_iff_exists.mp h
  obtain ⟨l', hl'⟩ := Option.isSome_iff_exists.mp h'
  rcases Nat.le_total f f' with hf | hf
  · rw [onMessage_mono hf hl, hl]
  · rw [onMessage_mono hf hl', hl']

/-- the depth needed -/
noncomputable def depth (p : Patch) (d : Dest) : Nat :=
  open Classical in if h : ∃ f, (p.onMessage f d).isSome then Nat.find h else 0

theorem depth_some {f : Nat} {d : Dest} (h : (p.onMessage f d).isSome) : (p.onMessage (depth p d) d).isSome := by
  classical
  have hx : ∃ f, (p.onMessage f d).isSome := ⟨f, h⟩
  have e : depth p d = Nat.find hx := by unfold depth; rw [dif_pos hx]
  rw [e]
  exact Nat.find_spec hx

theorem depth_le {f : Nat} {d : Dest} (h : (p.onMessage f d).isSome) : depth p d ≤ f := by
  classical
  have hx : ∃ f, (p.onMessage f d).isSome := ⟨f, h⟩
  have e : depth p d = Nat.find hx := by unfold depth; rw [dif_pos hx]
  rw [e]
  exact Nat.find_min' hx h

theorem allLists_some {f : List Dest → Option (List Dest)} {ls rs : List (List Dest)} (h : allLists f ls = some rs) :
    rs = ls.map fun l => (f l).getD [] := by
  induction ls generalizing rs with
  | nil => simp [allLists] at h; simp [h]
  | cons x xs ih =>
    rw [allLists] at h
    generalize hx : f x = o at h
    match o, hx with
    | none, _ => simp at h
    | some y, hx =>
      simp only [Option.map_eq_some_iff] at h
      obtain ⟨r, h1, rfl⟩ := h
      simp [hx, ih h1]

theorem allLists_mem {f : List Dest → Option (List Dest)} {ls rs : List (List Dest)} (h : allLists f ls = some rs) :
    ∀ l ∈ ls, (f l).isSome := by
  induction ls generalizing rs with
  | nil => simp
  | cons x xs ih =>
    rw [allLists] at h
    generalize hx : f x = o at h
    match o, hx with
    | none, _ => simp at h
    | some y, hx =>
      simp only [Option.map_eq_some_iff] at h
      obtain ⟨r, h1, rfl⟩ := h
      intro l hl
      rcases List.mem_cons.mp hl with rfl | hl
      · simp [hx]
      · exact ih h1 l hl

variable {f N : Nat} {ir : IR}

theorem toIR_some (h : p.toIR f (List.range N) = some ir) (o : Nat) (ho : o < N) :
    p.controlList f o = some (ir.sendMessage o) ∧ ir.kind = p.kind := by
  unfold Patch.toIR at h
  split at h
  · rename_i ha
    have := List.all_eq_true.mp ha o (List.mem_range.mpr ho)
    obtain ⟨l, hl⟩ := Option.isSome_iff_exists.mp this
    simp only [Option.some.injEq] at h
    subst h
    exact ⟨by rw [hl]; simp [hl], rfl⟩
  · simp at h

/-- the calls that replace a call -/
def listφ (p : Patch) (f : Nat) (x : Dest × M) : List (Dest × M) := ((p.onMessage f x.1).getD []).map (·, x.2)

theorem flatMap_listφ (ds : List Dest) (m : M) :
    (ds.map (·, m)).flatMap (listφ p f) = (ds.flatMap fun d => (p.onMessage f d).getD []).map (·, m) := by
  rw [List.flatMap_map, List.map_flatMap]
  rfl

/-- an object other than a send -/
theorem toIR_list (h : p.toIR f (List.range N) = some ir) (o : Nat) (ho : o < N) (hk : ∀ nm, p.kind o ≠ .send nm) :
    (∀ k, ∀ d ∈ p.out o k, (p.onMessage f d).isSome) ∧
    ir.sendMessage o = (p.outs o).map fun ds => ds.flatMap fun d => (p.onMessage f d).getD [] := by
  obtain ⟨h1, -⟩ := toIR_some h o ho
  have h2 : p.controlList f o = allLists (concatAll (p.onMessage f)) (p.outs o) := by
    unfold Patch.controlList
    split
    · rename_i nm e; exact absurd e (hk nm)
    · rfl
  rw [h2] at h1
  refine ⟨fun k d hd => ?_, ?_⟩
  · obtain ⟨ds, k1, k2⟩ := mem_out hd
    obtain ⟨l, hl⟩ := Option.isSome_iff_exists.mp (allLists_mem h1 ds k1)
    exact (concatAll_some hl).1 d k2
  · rw [allLists_some h1]
    refine List.map_congr_left fun ds hds => ?_
    obtain ⟨l, hl⟩ := Option.isSome_iff_exists.mp (allLists_mem h1 ds hds)
    rw [hl]
    exact (concatAll_some hl).2

theorem toIR_sends (h : p.toIR f (List.range N) = some ir) (o : Nat) (ho : o < N) (hk : ∀ nm, p.kind o ≠ .send nm)
    (k : Nat) (hl : k < (p.outs o).length ∨ k = 0) (m : M) :
    ((p.out o k).map (·, m)).flatMap (listφ p f) = (ir.sends o k).map (·, m) := by
  rw [flatMap_listφ]
  refine congrArg _ ?_
  have e := (toIR_list h o ho hk).2
  unfold IR.sends Patch.out
  rw [e]
  generalize p.outs o = ls at hl
  match ls with
  | [] => simp
  | [l] =>
    have : k = 0 := by simpa using hl
    subst this
    simp
  | a :: b :: ls =>
    simp only [List.map_cons]
    rw [show (List.flatMap (fun d => (p.onMessage f d).getD []) a :: List.flatMap (fun d => (p.onMessage f d).getD []) b ::
      List.map (fun ds => List.flatMap (fun d => (p.onMessage f d).getD []) ds) ls) =
      (a :: b :: ls).map fun ds => List.flatMap (fun d => (p.onMessage f d).getD []) ds from rfl, List.getElem?_map]
    cases (a :: b :: ls)[k]? <;> simp

theorem onMessage_id {d : Dest} (hg : ∀ ins, p.kind d.1 ≠ .graph ins) (ho : ∀ g k, p.kind d.1 ≠ .outlet g k)
    (h : (p.onMessage f d).isSome) : p.onMessage f d = some [d] := by
  cases f with
  | zero => simp [Patch.onMessage] at h
  | succ f =>
    rw [Patch.onMessage]
    split
    · rename_i ins e; exact absurd e (hg ins)
    · rename_i g k e; exact absurd e (ho g k)
    · rfl

theorem depth_lt {d : Dest} {ds : List Dest} (h : (p.onMessage f d).isSome)
    (hstep : ∀ f, (p.onMessage (f + 1) d).isSome → ∀ e ∈ ds, (p.onMessage f e).isSome) :
    ∀ e ∈ ds, depth p e < depth p d := by
  intro e he
  have h1 := depth_some h
  generalize hd : depth p d = n at h1
  cases n with
  | zero => simp [Patch.onMessage] at h1
  | succ n =>
    have := depth_le (hstep n h1 e he)
    omega

theorem toIR_inline (wf : WF p N) (h : p.toIR f (List.range N) = some ir) (hseq : ∀ o < N, ∀ l, p.kind o ≠ .seq l)
    (hrec : ∀ nm, (p.recvs nm).length ≤ 1) (E : Env σ M)
    (huse : ∀ o i m, o < N → p.kind o = .obj → (E.beh o i m).Uses (· < (p.outs o).length)) :
    Inline (p.means p.recvs E) (ir.code E) (fun x => x.1.1 < N ∧ (p.onMessage f x.1).isSome ∧ p.kind x.1.1 ≠ .recv) (listφ p f) fun x => depth p x.1 := by
  have hP : ∀ (o k : Nat), o < N → (∀ nm, p.kind o ≠ .send nm) → ∀ e ∈ p.out o k, e.1 < N ∧ (p.onMessage f e).isSome ∧ p.kind e.1 ≠ .recv := by
    intro o k ho hk e he
    obtain ⟨ds, k1, k2⟩ := mem_out he
    exact ⟨(wf.dest o ds k1 e k2).1, (toIR_list h o ho hk).1 k e he, (wf.dest o ds k1 e k2).2.2⟩
  have hP' : ∀ (o k : Nat) (m : M), o < N → (∀ nm, p.kind o ≠ .send nm) → ∀ e ∈ (p.out o k).map (·, m),
      e.1.1 < N ∧ (p.onMessage f e.1).isSome ∧ p.kind e.1.1 ≠ .recv := by
    intro o k m ho hk e he
    obtain ⟨d, hd, rfl⟩ := List.mem_map.mp he
    exact hP o k ho hk d hd
  have hid : ∀ x : Dest × M, (∀ ins, p.kind x.1.1 ≠ .graph ins) → (∀ g k, p.kind x.1.1 ≠ .outlet g k) →
      (p.onMessage f x.1).isSome → listφ p f x = [x] := by
    intro x h1 h2 h3
    unfold listφ
    rw [onMessage_id h1 h2 h3]
    rfl
  refine ⟨fun x a hp hn => ?_, fun x v ls hp hn => ?_⟩
  · have hk : p.kind x.1.1 = .obj := by
      simp only [Patch.means] at hn
      split at hn <;> first | assumption | (simp at hn; done) | (split at hn <;> simp at hn)
    have ha : a = E.beh x.1.1 x.1.2 x.2 := by
      simp only [Patch.means, hk, Node.obj.injEq] at hn
      exact hn.symm
    have hki := (toIR_some h x.1.1 hp.1).2
    refine ⟨hid x (by simp [hk]) (by simp [hk]) hp.2.1, by simp only [IR.code, hki, hk, ha], ?_⟩
    rw [ha]
    exact (huse _ _ _ hp.1 hk).mono fun k hlt m => ⟨hP _ k hp.1 (by simp [hk]), toIR_sends h _ hp.1 (by simp [hk]) k (Or.inl hlt) m⟩
  · have hki := (toIR_some h x.1.1 hp.1).2
    simp only [Patch.means] at hn
    generalize hk : p.kind x.1.1 = kk at hn
    match kk, hk with
    | .obj, hk => simp at hn
    | .seq l', hk => exact absurd hk (hseq _ hp.1 l')
    | .cast c, hk =>
      simp only at hn
      cases hc : E.cast c x.2 with
      | none =>
        rw [hc] at hn
        simp only [Node.fwd.injEq] at hn
        obtain ⟨rfl, rfl⟩ := hn
        exact ⟨by simp, Or.inl ⟨hid x (by simp [hk]) (by simp [hk]) hp.2.1, [], by simp only [IR.code, hki, hk, hc], by simpa using .refl⟩⟩
      | some m' =>
        rw [hc] at hn
        simp only [Node.fwd.injEq] at hn
        obtain ⟨rfl, rfl⟩ := hn
        refine ⟨hP' _ _ _ hp.1 (by simp [hk]), Or.inl ⟨hid x (by simp [hk]) (by simp [hk]) hp.2.1, _, by simp only [IR.code, hki, hk, hc]; rfl, ?_⟩⟩
        rw [toIR_sends h _ hp.1 (by simp [hk]) 0 (Or.inr rfl)]
        exact .refl
    | .graph ins, hk =>
      simp only at hn
      cases hi : ins[x.1.2]? with
      | none =>
        exfalso
        have := hp.2.1
        cases f with
        | zero => simp [Patch.onMessage] at this
        | succ f => rw [Patch.onMessage, hk] at this; simp [hi] at this
      | some i =>
        rw [hi] at hn
        simp only [Node.fwd.injEq] at hn
        obtain ⟨rfl, rfl⟩ := hn
        have hg := wf.graph _ _ hk i (List.mem_of_getElem? hi)
        have step : ∀ f, p.onMessage (f + 1) x.1 = concatAll (p.onMessage f) (p.out i 0) := by
          intro f
          rw [Patch.onMessage, hk]
          simp only [hi]
        have hall := hP i 0 hg.1 (by simp [hg.2])
        refine ⟨hP' _ _ _ hg.1 (by simp [hg.2]), Or.inr ⟨rfl, ?_, fun e he => ?_⟩⟩
        · have e1 : p.onMessage f x.1 = some ((p.out i 0).flatMap fun d => (p.onMessage f d).getD []) := by
            have h2 : p.onMessage (f + 1) x.1 = some ((p.out i 0).flatMap fun d => (p.onMessage f d).getD []) := by
              rw [step]
              exact concatAll_of fun d hd => (hall d hd).2.1
            rw [onMessage_eq hp.2.1 (f' := f + 1) (by rw [h2]; rfl), h2]
          rw [flatMap_listφ, listφ, e1]
          exact .refl
        · obtain ⟨d, hd, rfl⟩ := List.mem_map.mp he
          refine depth_lt hp.2.1 (ds := p.out i 0) (fun f hf e he => ?_) d hd
          rw [step] at hf
          obtain ⟨l, hl⟩ := Option.isSome_iff_exists.mp hf
          exact (concatAll_some hl).1 e he
    | .outlet g k, hk =>
      simp only [Node.fwd.injEq] at hn
      obtain ⟨rfl, rfl⟩ := hn
      obtain ⟨hg, ins, hg2⟩ := wf.outlet _ _ _ hk
      have step : ∀ f, p.onMessage (f + 1) x.1 = concatAll (p.onMessage f) (p.out g k) := by
        intro f
        rw [Patch.onMessage, hk]
      have hall := hP g k hg (by simp [hg2])
      refine ⟨hP' _ _ _ hg (by simp [hg2]), Or.inr ⟨rfl, ?_, fun e he => ?_⟩⟩
      · have e1 : p.onMessage f x.1 = some ((p.out g k).flatMap fun d => (p.onMessage f d).getD []) := by
          have h2 : p.onMessage (f + 1) x.1 = some ((p.out g k).flatMap fun d => (p.onMessage f d).getD []) := by
            rw [step]
            exact concatAll_of fun d hd => (hall d hd).2.1
          rw [onMessage_eq hp.2.1 (f' := f + 1) (by rw [h2]; rfl), h2]
        rw [flatMap_listφ, listφ, e1]
        exact .refl
      · obtain ⟨d, hd, rfl⟩ := List.mem_map.mp he
        refine depth_lt hp.2.1 (ds := p.out g k) (fun f hf e he => ?_) d hd
        rw [step] at hf
        obtain ⟨l, hl⟩ := Option.isSome_iff_exists.mp hf
        exact (concatAll_some hl).1 e he
    | .send nm, hk =>
      simp only [Node.fwd.injEq] at hn
      obtain ⟨rfl, rfl⟩ := hn
      refine ⟨fun e he => ?_, Or.inl ⟨hid x (by simp [hk]) (by simp [hk]) hp.2.1, _, by simp only [IR.code, hki, hk]; rfl, ?_⟩⟩
      · obtain ⟨r, hr, he⟩ := List.mem_flatMap.mp he
        have hg := wf.recv nm r hr
        exact hP' r 0 _ hg.1 (by simp [hg.2]) e he
      · have h1 := (toIR_some h x.1.1 hp.1).1
        simp only [Patch.controlList, hk, Option.map_eq_some_iff] at h1
        obtain ⟨l, h1, h2⟩ := h1
        have hs : ir.sends x.1.1 0 = l := by unfold IR.sends; rw [← h2]
        rw [hs]
        have h3 := hrec nm
        generalize hr : p.recvs nm = rs at h1 h3
        match rs, hr with
        | [], _ =>
          simp [concatAll] at h1
          subst h1
          exact .refl
        | [r], hr =>
          have hg := wf.recv nm r (by rw [hr]; simp)
          have hl : l = [(r, 0)] := by
            obtain ⟨k1, k2⟩ := concatAll_some h1
            rw [k2]
            have := onMessage_id (p := p) (f := f) (d := (r, 0)) (by simp [hg.2]) (by simp [hg.2]) (k1 _ (by simp))
            simp [this]
          subst hl
          simp only [List.map_cons, List.map_nil, List.flatMap_cons, List.flatMap_nil, List.append_nil]
          rw [toIR_sends h r hg.1 (by simp [hg.2]) 0 (Or.inr rfl)]
          exact .expand (by simp only [IR.code, hki, hg.2])
        | _ :: _ :: _, hr => simp at h3
    | .recv, hk => exact absurd hk hp.2.2
    | .inlet, hk =>
      simp only [Node.fwd.injEq] at hn
      obtain ⟨rfl, rfl⟩ := hn
      exact ⟨by simp, Or.inl ⟨hid x (by simp [hk]) (by simp [hk]) hp.2.1, [], by simp only [IR.code, hki, hk], by simpa using .refl⟩⟩

/-- the calls in the generated code; a message to a name goes to the receivers of that name -/
def Src.code (ir : IR) (recvs : Nat → List Nat) : Src M → List (Dest × M)
  | .outlet o k m => (ir.sends o k).map (·, m)
  | .name nm m => (recvs nm).map fun r => ((r, 0), m)

theorem toIR_same (wf : WF p N) (h : p.toIR f (List.range N) = some ir) (hseq : ∀ o < N, ∀ l, p.kind o ≠ .seq l)
    (hrec : ∀ nm, (p.recvs nm).length ≤ 1) (E : Env σ M)
    (huse : ∀ o i m, o < N → p.kind o = .obj → (E.beh o i m).Uses (· < (p.outs o).length))
    (src : List (Src M)) (hv : ∀ x ∈ src, x.Valid p N) (s s' : σ) (t : List (Dest × M)) :
    Big (p.means p.recvs E) (.all (src.flatMap (·.calls p p.recvs))) s s' t ↔
    Big (ir.code E) (.all (src.flatMap (·.code ir p.recvs))) s s' t := by
  have hinl := toIR_inline wf h hseq hrec E huse
  have hki : ∀ o < N, ir.kind o = p.kind o := fun o ho => by rw [(toIR_some h o ho).2]
  have hP : ∀ (o k : Nat) (m : M), o < N → (∀ nm, p.kind o ≠ .send nm) → ∀ e ∈ (p.out o k).map (·, m),
      e.1.1 < N ∧ (p.onMessage f e.1).isSome ∧ p.kind e.1.1 ≠ .recv := by
    intro o k m ho hk e he
    obtain ⟨d, hd, rfl⟩ := List.mem_map.mp he
    obtain ⟨ds, k1, k2⟩ := mem_out hd
    exact ⟨(wf.dest o ds k1 d k2).1, (toIR_list h o ho hk).1 k d hd, (wf.dest o ds k1 d k2).2.2⟩
  rw [hinl.correct _ ?_]
  · have hsil : ∀ x ∈ src, Silent (ir.code E) (x.code ir p.recvs) ((x.calls p p.recvs).flatMap (listφ p f)) := by
      intro x hx
      match x, hv x hx with
      | .outlet o k m, ⟨h1, h2, h3⟩ =>
        simp only [Src.calls, Src.code]
        rw [toIR_sends h o h1 (by simp [h2]) k (Or.inl h3)]
        exact .refl
      | .name nm m, _ =>
        simp only [Src.calls, Src.code]
        have h3 := hrec nm
        generalize hr : p.recvs nm = rs at h3
        match rs, hr with
        | [], _ => exact .refl
        | [r], hr =>
          have hg := wf.recv nm r (by rw [hr]; simp)
          simp only [List.map_cons, List.map_nil, List.flatMap_cons, List.flatMap_nil, List.append_nil]
          rw [toIR_sends h r hg.1 (by simp [hg.2]) 0 (Or.inr rfl)]
          exact .expand (by simp only [IR.code, hki r hg.1, hg.2])
        | _ :: _ :: _, _ => simp at h3
    have hall : Silent (ir.code E) (src.flatMap (·.code ir p.recvs)) ((src.flatMap (·.calls p p.recvs)).flatMap (listφ p f)) := by
      clear hv
      induction src with
      | nil => exact .refl
      | cons x xs ih =>
        simp only [List.flatMap_cons, List.flatMap_append]
        exact .append (hsil x (by simp)) (ih fun y hy => hsil y (by simp [hy]))
    constructor
    · exact hall.big
    · intro hb
      obtain ⟨n, e⟩ := big_all_iff.mp hb
      exact big_all_iff.mpr ⟨n, hall.fuel e⟩
  · intro e he
    obtain ⟨x, hx, he⟩ := List.mem_flatMap.mp he
    match x, hv x hx, he with
    | .outlet o k m, hx, he => exact hP o k m hx.1 (by rw [hx.2.1]; simp) e he
    | .name nm m, _, he =>
      obtain ⟨r, hr, he⟩ := List.mem_flatMap.mp he
      have hg := wf.recv nm r hr
      exact hP r 0 m hg.1 (by rw [hg.2]; simp) e he

end Lists

/-! ## C35, C45 -/

theorem FireOrder.of_single {p : Patch} {nm : Nat} {l : List Nat} (h : FireOrder p nm l) (h1 : (p.recvs nm).length ≤ 1) :
    l = p.recvs nm := by
  have := h.all
  match hr : p.recvs nm, h1 with
  | [], _ => rw [hr] at this; exact this.eq_nil
  | [r], _ => rw [hr] at this; exact List.perm_singleton.mp this

/-- **C45** (with **C35**): the compiled program does with every message exactly what the patch means.

`p` has the objects below `n`, among them the sequences `os` and the receivers of `names`.  Whatever the objects do (`E`; they
use only the outlets they have), whatever messages are sent from outlets of objects or to names (`src`), and whatever the state:
the generated code ends in a state, with a list of messages delivered to objects (and send hooks), exactly if the patch does,
with the same state and the same list in the same order. -/
theorem control_correct (p : Patch) (n : Nat) (os names : List Nat) (f : Nat) (q : Patch) (ir : IR)
    (hc : p.compile n os names f = some (q, ir)) (wf : WF p n)
    (hos : ∀ o, o ∈ os ↔ o < n ∧ ∃ l, p.kind o = .seq l) (hnames : ∀ nm, p.recvs nm ≠ [] → nm ∈ names)
    (order : Nat → List Nat) (ho : ∀ nm, FireOrder p nm (order nm))
    (E : Env σ M) (huse : ∀ o i m, p.kind o = .obj → (E.beh o i m).Uses (· < (p.outs o).length))
    (src : List (Src M)) (hv : ∀ x ∈ src, x.Valid p n) (s s' : σ) (t : List (Dest × M)) :
    (∃ depth, sendAll ((p.means order E).deliver depth) (src.flatMap (·.calls p order)) s = some (s', t)) ↔
    (∃ depth, sendAll ((ir.code E).deliver depth) (src.flatMap (·.code ir q.recvs)) s = some (s', t)) := by
  obtain ⟨a1, a2, a3, a4, a5, a6⟩ := reduceAll_same p n os wf (fun o h => ((hos o).mp h).1) order
    (fun nm r hr => (ho nm).all.mem_iff.mp hr) E
  have ho1 : ∀ nm, FireOrder (p.reduceAll n os).1 nm (order nm) := fun nm =>
    ⟨by rw [a4]; exact (ho nm).all, by rw [a5]; exact (ho nm).sorted, fun x => by rw [a4, a5]; exact (ho nm).stable x⟩
  obtain ⟨order', b1, b2, b3, b4, b5, b6, b7, b8⟩ := group_same (p.reduceAll n os).1 (p.reduceAll n os).2 names a1 order ho1 E
  simp only [Patch.compile, Option.map_eq_some_iff, Prod.mk.injEq] at hc
  obtain ⟨ir', c1, rfl, rfl⟩ := hc
  generalize hq : (p.reduceAll n os).1.group (p.reduceAll n os).2 names = qq at *
  have hrec : ∀ nm, (qq.1.recvs nm).length ≤ 1 := by
    intro nm
    by_cases hm : nm ∈ names
    · exact b5 nm hm
    · rw [b6 nm hm, a4]
      by_contra hne
      exact hm (hnames nm fun h => hne (by rw [h]; simp))
  have hord : order' = qq.1.recvs := funext fun nm => (b4 nm).of_single (hrec nm)
  have hseq : ∀ o < qq.2, ∀ l, qq.1.kind o ≠ .seq l := by
    intro o h l e
    obtain ⟨k1, k2⟩ := b8 o h l e
    obtain ⟨k3, k4, k5⟩ := a6 o k1 l k2
    exact k5 ((hos o).mpr ⟨k3, l, k4⟩)
  have hk := a2.trans b2
  rw [← big_all_iff, ← big_all_iff, a3 src hv, b3 src (fun x hx => (hv x hx).keeps a2), hord]
  refine toIR_same b1 c1 hseq hrec E (fun o i m h1 h2 => ?_) src (fun x hx => (hv x hx).keeps hk) s s' t
  obtain ⟨k1, k2⟩ := hk.obj o h1 h2
  rw [hk.len o k1 k2]
  exact huse o i m k2

/-- **C35**: what a message to a name does is determined by the patch alone: there is exactly one firing order -/
theorem fire_order_exists_unique (p : Patch) (name : Nat) : ∃! l, FireOrder p name l :=
  ⟨_, sorted_fireOrder p name, fun _ h => h.unique (sorted_fireOrder p name)⟩

end Verif.Control
