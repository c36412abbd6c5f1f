import Verif.LibCompile
/-!
Simulation: an abstraction and a machine that says what it should do.
-/
namespace Verif.Lib
open Verif.Control (Dest Kind Cast Patch Act Sys Env Big WF FireOrder Src)

theorem big_det {S : Sys St Msg} {l : Calls} {s s1 s2 : St} {t1 t2 : List (Dest × Msg)} (h1 : Big S (.all l) s s1 t1)
    (h2 : Big S (.all l) s s2 t2) : s1 = s2 := by
  obtain ⟨n1, e1⟩ := Control.big_all_iff.mp h1
  obtain ⟨n2, e2⟩ := Control.big_all_iff.mp h2
  have e1 := Control.run_mono S (Nat.le_max_left n1 n2) (.all l) s _ e1
  have e2 := Control.run_mono S (Nat.le_max_right n1 n2) (.all l) s _ e2
  have := e1.symm.trans e2
  simp only [Option.some.injEq, Prod.mk.injEq] at this
  exact this.1

theorem happens_det {M : Mach} {drv : Nat → Nat} {e : Ev} {s s1 s2 : St} (h1 : Happens M drv e s s1) (h2 : Happens M drv e s s2) :
    s1 = s2 := by
  cases h1 with
  | ext _ _ h1 =>
    cases h2 with
    | ext _ _ h2 => exact big_det h1 h2
  | tick hq h1 =>
    cases h2 with
    | tick hq' h2 =>
      have := hq.symm.trans hq'
      simp only [List.cons.injEq] at this
      obtain ⟨rfl, rfl⟩ := this
      exact big_det h1 h2

theorem Happens.can {M : Mach} {drv : Nat → Nat} {e : Ev} {s s1 : St} (h : Happens M drv e s s1) : Can s e := by
  cases h with
  | ext h1 h2 _ => exact ⟨h1, h2⟩
  | tick h _ => intro e; rw [h] at e; simp at e

/-- the machine `on` and the program `M`, started, go together: whatever can happen is dealt with -/
structure Simulates (M : Mach) (drv : Nat → Nat) (st : St) (Fits : Ev → Prop) {σ : Type} (on : σ → Ev → σ) (x0 : σ)
    (Sim : σ → St → Prop) : Prop where
  boot : ∃ s, Booted M st s ∧ Sim x0 s
  step : ∀ {x s e}, Sim x s → Fits e → Can s e → ∃ s', Happens M drv e s s' ∧ Sim (on x e) s'

variable {M : Mach} {drv : Nat → Nat} {st : St} {Fits : Ev → Prop} {σ : Type} {on : σ → Ev → σ} {x0 : σ} {Sim : σ → St → Prop}

theorem Simulates.hist (h : Simulates M drv st Fits on x0 Sim) {es : List Ev} {x : σ} {s s' : St} (hs : Sim x s)
    (hf : ∀ e ∈ es, Fits e) (hh : Hist M drv es s s') : Sim (es.foldl on x) s' := by
  induction hh generalizing x with
  | nil => exact hs
  | cons h1 _ ih =>
    obtain ⟨s1, h2, h3⟩ := h.step hs (hf _ (List.mem_cons_self ..)) h1.can
    rw [happens_det h1 h2] at ih
    exact ih h3 fun e he => hf e (List.mem_cons_of_mem _ he)

theorem Simulates.runs (h : Simulates M drv st Fits on x0 Sim) {es : List Ev} {s : St} (hf : ∀ e ∈ es, Fits e)
    (hr : Runs M drv st es s) : Sim (es.foldl on x0) s := by
  obtain ⟨s0, h1, h2⟩ := hr
  obtain ⟨s1, t1, hs⟩ := h.boot
  have : s0 = s1 := by
    obtain ⟨_, h1⟩ := h1
    obtain ⟨_, t1⟩ := t1
    exact big_det h1 t1
  subst this
  exact h.hist hs hf h2

/-- a simulation of the patch is one of its generated code -/
theorem Simulates.code {c : Ctx} {l : List Node} {rec ord : List (List Nat)} {prio : Nat → Int} {rank : List Nat}
    {tab : Nat → List ℚ} {M' : Mach} (hk : check (shapeOf l) rec ord prio rank = true) (hc : clsOK l = true)
    (hM : Compiled c l (recvsOf rec) prio M') (hd : ∀ e, Fits e → Driven l (recvsOf rec) prio drv e)
    (h : Simulates (source c l (recvsOf rec) prio (recvsOf ord)) drv (start c l tab) Fits on x0 Sim) :
    Simulates M' drv (start c l tab) Fits on x0 (fun x s => Sim x s ∧ GoodQ l s) where
  boot := by
    obtain ⟨s, h1, h2⟩ := h.boot
    exact ⟨s, (booted_code hk hc hM).mpr h1, h2, ends_goodQ h1 (goodQ_start _ _)⟩
  step := by
    intro x s e hs hf hcan
    obtain ⟨s', h1, h2⟩ := h.step hs.1 hf hcan
    exact ⟨s', (happens_code hk hc hM (hd e hf) hs.2).mpr h1, h2, happens_goodQ h1 hs.2⟩

/-- it starts, and whatever can happen is dealt with -/
theorem Simulates.goes_on (h : Simulates M drv st Fits on x0 Sim) :
    (∃ s, Runs M drv st [] s) ∧ ∀ (es : List Ev) (_ : ∀ e ∈ es, Fits e) (s : St) (_ : Runs M drv st es s) (e : Ev), Fits e →
      Can s e → ∃ s', Happens M drv e s s' := by
  refine ⟨?_, fun es hf s hr e he hc => ?_⟩
  · obtain ⟨s, h1, -⟩ := h.boot
    exact ⟨s, s, h1, .nil⟩
  · obtain ⟨s', h1, -⟩ := h.step (h.runs hf hr) he hc
    exact ⟨s', h1⟩

/-! ## objects that react at once -/

/-- what an object does that reacts to a message only when it arrives: what it remembers, and the messages it puts out (outlet,
message), one after the other -/
structure Reacts (σ : Type) where
  init : σ
  on : σ → Nat → Nat → Msg → σ × List (Nat × Msg)

/-- with what has come out (time, outlet, message) -/
def Reacts.step (O : Reacts σ) (x : σ × List (Nat × Nat × Msg)) : Ev → σ × List (Nat × Nat × Msg)
  | .ext t i m => ((O.on x.1 t i m).1, x.2 ++ (O.on x.1 t i m).2.map fun y => (t, y))
  | .tick => x

/-- after a history -/
def Reacts.after (O : Reacts σ) (es : List Ev) : σ × List (Nat × Nat × Msg) := es.foldl O.step (O.init, [])

/-- the program does what `O` does: after every history what has come out of it, and when, is what has come out of `O`; nothing is
left in the message queue; and it never gets stuck -/
structure Does (M : Mach) (drv : Nat → Nat) (st : St) (Fits : Ev → Prop) (O : Reacts σ) : Prop where
  same : ∀ (es : List Ev) (_ : ∀ e ∈ es, Fits e) (s : St), Runs M drv st es s → s.log = (O.after es).2 ∧ s.q = []
  starts : ∃ s, Runs M drv st [] s
  goes_on : ∀ (es : List Ev) (_ : ∀ e ∈ es, Fits e) (s : St) (_ : Runs M drv st es s) (t i : Nat) (m : Msg), Fits (.ext t i m) →
    s.now ≤ t → ∃ s', Happens M drv (.ext t i m) s s'

/-- nothing is scheduled, and the log -/
structure Quiet (R : σ → St → Prop) (x : σ × List (Nat × Nat × Msg)) (s : St) : Prop where
  rel : R x.1 s
  q : s.q = []
  log : s.log = x.2

theorem simulates_of_reacts {O : Reacts σ} {R : σ → St → Prop} (boot : ∃ s, Booted M st s ∧ R O.init s ∧ s.q = [] ∧ s.log = [])
    (step : ∀ x s t i m, R x s → s.q = [] → Fits (.ext t i m) → ∃ s', Ends M.sys (M.call (.outlet (drv i) 0 m)) { s with now := t } s' ∧
      R (O.on x t i m).1 s' ∧ s'.q = [] ∧ s'.log = s.log ++ (O.on x t i m).2.map fun y => (t, y)) :
    Simulates M drv st Fits O.step (O.init, []) (Quiet R) where
  boot := by
    obtain ⟨s, h1, h2, h3, h4⟩ := boot
    exact ⟨s, h1, h2, h3, h4⟩
  step := by
    intro x s e hs hf hc
    cases e with
    | ext t i m =>
      obtain ⟨s', h1, h2, h3, h4⟩ := step x.1 s t i m hs.rel hs.q hf
      exact ⟨s', happens_ext.mpr ⟨hc.1, hc.2, h1⟩, h2, h3, by rw [h4, hs.log]; rfl⟩
    | tick => exact absurd hs.q hc

theorem does_of_simulates {O : Reacts σ} {S : σ × List (Nat × Nat × Msg) → St → Prop}
    (h : Simulates M drv st Fits O.step (O.init, []) S) (hq : ∀ x s, S x s → s.q = [] ∧ s.log = x.2) : Does M drv st Fits O where
  same es hf s hr := ⟨(hq _ _ (h.runs hf hr)).2, (hq _ _ (h.runs hf hr)).1⟩
  starts := h.goes_on.1
  goes_on es hf s hr t i m he ht := h.goes_on.2 es hf s hr _ he ⟨ht, by rw [(hq _ _ (h.runs hf hr)).1]; simp⟩

end Verif.Lib
