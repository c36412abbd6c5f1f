import Verif.LibSim
/-!
The time after each event.
-/
namespace Verif.Lib
open Verif.Control (Dest Kind Cast Patch Act Sys Env Big WF FireOrder Src)

theorem step_now {c : Ctx} {k : Cls} {o i : Nat} {m : Msg} {s : St} : (step c k o i m s).1.now = s.now := by
  cases k <;> simp only [step]
  all_goals first
    | rfl
    | (unfold varStep; split <;> rfl)
    | (unfold iteStep; split <;> rfl)
    | (unfold binStep; split <;> rfl)
    | (unfold binkStep; split <;> rfl)
    | (unfold unStep; split <;> rfl)
    | (unfold fnStep; split <;> rfl)
    | (unfold powStep; split <;> rfl)
    | (unfold powkStep; split <;> rfl)
    | (unfold packStep; split <;> rfl)
    | (unfold tabreadStep; repeat' split) <;> rfl
    | (unfold tabwriteStep; repeat' split) <;> rfl
    | (unfold systemStep; repeat' split) <;> rfl
    | (unfold delayStep; repeat' split) <;> rfl

/-- no object changes the time -/
theorem ends_now {c : Ctx} {l : List Node} {recvs : Nat → List Nat} {prio : Nat → Int} {order : Nat → List Nat} {cs : Calls}
    {s s' : St} (h : Ends (source c l recvs prio order).sys cs s s') : s'.now = s.now := by
  obtain ⟨t, h⟩ := h
  obtain ⟨d, hd⟩ := Control.big_all_iff.mp h
  exact sendAll_inv (P := fun x => x.now = s.now)
    (fun x s1 r h1 h2 => deliver_inv (P := fun x => x.now = s.now) (fun _ _ _ _ h => step_now.trans h) d x s1 r h1 h2) cs s _ hd rfl

/-- the time of an event -/
def Ev.time (s : St) : Ev → Nat
  | .ext t _ _ => t
  | .tick => (s.q.head?.map (·.time)).getD s.now

theorem happens_now {c : Ctx} {l : List Node} {recvs : Nat → List Nat} {prio : Nat → Int} {order : Nat → List Nat} {drv : Nat → Nat}
    {e : Ev} {s s' : St} (h : Happens (source c l recvs prio order) drv e s s') : s'.now = e.time s := by
  cases h with
  | ext _ _ h => exact ends_now ⟨_, h⟩
  | tick hq h =>
    rw [ends_now ⟨_, h⟩, Ev.time, hq]
    rfl

theorem hist_snoc_inv {M : Mach} {drv : Nat → Nat} {es : List Ev} {e : Ev} {s s2 : St} (h : Hist M drv (es ++ [e]) s s2) :
    ∃ s1, Hist M drv es s s1 ∧ Happens M drv e s1 s2 := by
  induction es generalizing s with
  | nil =>
    cases h with
    | cons h1 h2 =>
      cases h2
      exact ⟨_, .nil, h1⟩
  | cons a es ih =>
    cases h with
    | cons h1 h2 =>
      obtain ⟨s1, h3, h4⟩ := ih h2
      exact ⟨s1, .cons h1 h3, h4⟩

theorem Runs.snoc_inv {M : Mach} {drv : Nat → Nat} {st : St} {es : List Ev} {e : Ev} {s2 : St} (h : Runs M drv st (es ++ [e]) s2) :
    ∃ s1, Runs M drv st es s1 ∧ Happens M drv e s1 s2 := by
  obtain ⟨s0, h1, h2⟩ := h
  obtain ⟨s1, h3, h4⟩ := hist_snoc_inv h2
  exact ⟨s1, ⟨s0, h1, h3⟩, h4⟩

variable {l : List Node} {rec ord : List (List Nat)} {prio : Nat → Int} {rank : List Nat}

/-- at the start the time is 0 -/
theorem runs_now_zero {c : Ctx} {M : Mach} {drv : Nat → Nat} (hk : check (shapeOf l) rec ord prio rank = true) (hc : clsOK l = true)
    (hM : Compiled c l (recvsOf rec) prio M) {tab : Nat → List ℚ} {s : St} (h : Runs M drv (start c l tab) [] s) : s.now = 0 := by
  obtain ⟨s0, h1, h2⟩ := h
  cases h2
  exact (ends_now ((booted_code hk hc hM).mp h1)).trans rfl

/-- after an event it is the time of the event -/
theorem runs_now {c : Ctx} {M : Mach} {drv : Nat → Nat} (hk : check (shapeOf l) rec ord prio rank = true) (hc : clsOK l = true)
    (hM : Compiled c l (recvsOf rec) prio M) {es : List Ev} {e : Ev} (hd : ∀ x ∈ es ++ [e], Driven l (recvsOf rec) prio drv x)
    {tab : Nat → List ℚ} {s' : St} (h : Runs M drv (start c l tab) (es ++ [e]) s') :
    ∃ s, Runs M drv (start c l tab) es s ∧ Happens M drv e s s' ∧ s'.now = e.time s := by
  obtain ⟨s, h1, h2⟩ := h.snoc_inv
  have h1' := (runs_code hk hc hM fun x hx => hd x (List.mem_append_left _ hx)).mp h1
  refine ⟨s, h1, h2, ?_⟩
  exact happens_now ((happens_code hk hc hM (hd e (by simp)) (runs_goodQ h1')).mp h2)

end Verif.Lib
