import Verif.Lib.Delay
import Verif.Lib.Pipe
import Mathlib.Tactic.Ring
/-!
C67: `[delay]` and `[pipe]`.
-/
namespace Verif.Lib
open Verif.Control (Dest Kind Cast Patch Act Sys Env Big)

/-- milliseconds in whole samples -/
def wait (sr ms : ℚ) : Nat := ⌊max 0 ms * sr / 1000⌋.toNat

theorem floor_wait (sr ms : ℚ) : ⌊num [.float ((⌊max 0 ms * sr / 1000⌋ : Int) : ℚ)]⌋.toNat = wait sr ms := by
  simp only [num, Int.floor_intCast, wait]

/-! ## `[delay]` -/

namespace Delay

/-! ### Specification -/

/-- an alarm clock: after how many samples it rings, when it will ring, when it has rung -/
structure Alarm where
  wait : Nat
  next : Option Nat
  bangs : List Nat

/-- a number sets the time to wait -/
def Alarm.set (A : Alarm) (sr : ℚ) : Msg → Alarm
  | .float ms :: _ => { A with wait := Lib.wait sr ms }
  | _ => A

/-- any message at the left inlet but `stop` sets the alarm, and no other alarm is left; a number is the time to wait, from now on;
`stop` turns it off; the right inlet sets the time to wait for the next messages -/
def Alarm.on (sr : ℚ) (A : Alarm) : Ev → Alarm
  | .ext t 0 m => if key m = .sym "stop" then { A with next := none } else { A.set sr m with next := some (t + (A.set sr m).wait) }
  | .ext _ _ m => A.set sr m
  | .tick =>
    match A.next with
    | some t => { A with next := none, bangs := A.bangs ++ [t] }
    | none => A

/-- two inlets -/
def Fits : Ev → Prop := Inlet

/-! ### Proofs -/

variable {a1 : ℚ} {c : Ctx} {s s' : St}

theorem stop_run {m : Msg} (h : key m = .sym "stop") :
    Ends (sys a1 c) [((0, 0), m)] s s' ↔ s' = { s with q := s.q.filter fun p => !decide (p.obj = 6) } := by
  simp [lib_step, lib_delay, h, List.findIdx_cons]

theorem start_run {m : Msg} (h : key m ≠ .sym "stop") (hm : ∀ q m', m ≠ .float q :: m') :
    Ends (sys a1 c) [((0, 0), m)] s s' ↔ s' = { s with
      q := insert ⟨s.now + ⌊num (s.mem 6)⌋.toNat, 6, [.bang]⟩ (s.q.filter fun p => !decide (p.obj = 6)) } := by
  have h2 : ¬ Atom.sym "stop" = key m := fun e => h e.symm
  have e : waiting 6 (s.q.filter fun p => !decide (p.obj = 6)) = [] := by
    simp [waiting]
  have hs : ∀ s, step c (.delay a1) 6 1 m s = (s, none) := by
    intro s
    match m with
    | [] => rfl
    | .bang :: _ => rfl
    | .sym _ :: _ => rfl
    | .float q :: m' => exact absurd rfl (hm q m')
  simp [lib_step, lib_delay, h2, List.findIdx_cons, e, maxMessages, hs]

theorem number_run {q : ℚ} {m : Msg} :
    Ends (sys a1 c) [((0, 0), .float q :: m)] s s' ↔ s' = { s.set 6 [.float (⌊max 0 q * c.sr / 1000⌋ : ℚ)] with
      q := insert ⟨s.now + wait c.sr q, 6, [.bang]⟩ (s.q.filter fun p => !decide (p.obj = 6)) } := by
  have h2 : ¬ Atom.sym "stop" = key (.float q :: m) := by simp [key]
  have e : waiting 6 (s.q.filter fun p => !decide (p.obj = 6)) = [] := by
    simp [waiting]
  rw [← floor_wait]
  simp [lib_step, lib_delay, h2, List.findIdx_cons, e, maxMessages, St.set]

theorem right_run {m : Msg} :
    Ends (sys a1 c) [((0, 1), m)] s s' ↔ s' = (step c (.delay a1) 6 1 m s).1 := by
  match m with
  | [] => simp [lib_step, lib_delay, step, delayStep]
  | .bang :: _ => simp [lib_step, lib_delay, step, delayStep]
  | .sym _ :: _ => simp [lib_step, lib_delay, step, delayStep]
  | .float q :: m' => simp [lib_step, lib_delay]

theorem tick_run : Ends (sys a1 c) [((3, 0), [.bang])] s s' ↔ s' = { s with log := s.log ++ [(s.now, 0, [.bang])] } := by
  simp [lib_step, lib_delay]

structure Sim (A : Alarm) (s : St) : Prop where
  queue : s.q = A.next.toList.map fun t => ⟨t, 6, [.bang]⟩
  log : s.log = A.bangs.map fun t => (t, 0, [.bang])
  wait : ⌊num (s.mem 6)⌋.toNat = A.wait

theorem Sim.clear {A : Alarm} (h : Sim A s) : s.q.filter (fun p => !decide (p.obj = 6)) = [] := by
  rw [h.queue]
  cases A.next <;> simp

theorem Sim.step {A : Alarm} {e : Ev} (h : Sim A s) (hf : Fits e) (hc : Can s e) :
    ∃ s', Happens (mach a1 c) drv e s s' ∧ Sim (A.on c.sr e) s' := by
  cases e with
  | ext t i m =>
    match i, hf with
    | 0, _ =>
      by_cases hm : key m = .sym "stop"
      · refine ⟨_, happens_ext.mpr ⟨hc.1, hc.2, (stop_run hm).mpr rfl⟩, ?_⟩
        simp only [Alarm.on, hm, if_true]
        exact ⟨by simp only [h.clear]; rfl, h.log, h.wait⟩
      · have hother : (∀ q m', m ≠ .float q :: m') → A.set c.sr m = A := by
          intro hn
          unfold Alarm.set
          split
          · exact absurd rfl (hn _ _)
          · rfl
        by_cases hq : ∃ q m', m = .float q :: m'
        · obtain ⟨q, m', rfl⟩ := hq
          refine ⟨_, happens_ext.mpr ⟨hc.1, hc.2, number_run.mpr rfl⟩, ?_⟩
          simp only [Alarm.on, hm, if_false, Alarm.set]
          refine ⟨by simp only [h.clear, set_now]; rfl, h.log, ?_⟩
          simp only [lib_step]
          exact floor_wait c.sr q
        · have hn : ∀ q m', m ≠ .float q :: m' := fun q m' e => hq ⟨q, m', e⟩
          refine ⟨_, happens_ext.mpr ⟨hc.1, hc.2, (start_run hm hn).mpr rfl⟩, ?_⟩
          simp only [Alarm.on, hm, if_false, hother hn]
          exact ⟨by simp only [h.clear, h.wait]; rfl, h.log, h.wait⟩
    | 1, _ =>
      refine ⟨_, happens_ext.mpr ⟨hc.1, hc.2, right_run.mpr rfl⟩, ?_⟩
      match m with
      | [] => exact ⟨h.queue, h.log, h.wait⟩
      | .bang :: _ => exact ⟨h.queue, h.log, h.wait⟩
      | .sym _ :: _ => exact ⟨h.queue, h.log, h.wait⟩
      | .float q :: _ =>
        refine ⟨h.queue, h.log, ?_⟩
        simp only [lib_step]
        exact floor_wait c.sr q
  | tick =>
    have hq := h.queue
    cases hn : A.next with
    | none => rw [hn] at hq; exact absurd hq hc
    | some t =>
      rw [hn] at hq
      refine ⟨_, happens_tick.mpr ⟨_, _, hq, tick_run.mpr rfl⟩, ?_⟩
      simp only [Alarm.on, hn]
      refine ⟨rfl, ?_, h.wait⟩
      simp only [h.log, List.map_append]
      rfl

theorem sim (tab : Nat → List ℚ) : Simulates (mach a1 c) drv (start c (nodes a1) tab) Fits (Alarm.on c.sr)
    ⟨wait c.sr a1, none, []⟩ Sim where
  boot := by
    have hb : Ends (sys a1 c) [] (start c (nodes a1) tab) _ := ends_nil.mpr rfl
    exact ⟨_, hb, rfl, rfl, floor_wait c.sr a1⟩
  step := Sim.step

/-- **C67**: the generated code of `[delay a1]` is an alarm clock: whatever is sent to it and whenever, what comes out of it, and when,
is what comes out of an alarm clock that waits `a1` ms, and the message queue has one message if the alarm is set, due when it will
ring, and none otherwise.  It never gets stuck. -/
theorem delay_alarm (M : Mach) (hM : Code a1 c M) (tab : Nat → List ℚ) :
    (∀ (es : List Ev) (_ : ∀ e ∈ es, Inlet e) (s : St), Runs M drv (start c (nodes a1) tab) es s →
      let A := es.foldl (Alarm.on c.sr) ⟨wait c.sr a1, none, []⟩
      s.log = A.bangs.map (fun t => (t, 0, [.bang])) ∧ s.q.map (·.time) = A.next.toList) ∧
    (∃ s, Runs M drv (start c (nodes a1) tab) [] s) ∧
    ∀ (es : List Ev) (_ : ∀ e ∈ es, Inlet e) (s : St) (_ : Runs M drv (start c (nodes a1) tab) es s) (e : Ev), Inlet e → Can s e →
      ∃ s', Happens M drv e s s' := by
  have hs := to_code hM (fun _ h => h) (sim (c := c) (a1 := a1) tab)
  refine ⟨fun es hf s h => ?_, hs.goes_on⟩
  have := (hs.runs hf h).1
  refine ⟨this.log, ?_⟩
  rw [this.queue]
  cases (es.foldl (Alarm.on c.sr) ⟨wait c.sr a1, none, []⟩).next <;> rfl

/-- `[delay 100]` at 1000 Hz: a bang at 5 rings at 105; set anew at 50 it rings at 150 only; `stop` -/
example : (([.ext 5 0 [.bang], .tick] : List Ev).foldl (Alarm.on 1000) ⟨100, none, []⟩).bangs = [105] ∧
    (([.ext 5 0 [.bang], .ext 50 0 [.bang], .tick] : List Ev).foldl (Alarm.on 1000) ⟨100, none, []⟩).bangs = [150] ∧
    (([.ext 5 0 [.bang], .ext 50 0 [.sym "stop"]] : List Ev).foldl (Alarm.on 1000) ⟨100, none, []⟩).next = none := by
  decide

example (a1 : ℚ) (c : Ctx) : ∃ M, Code a1 c M := code_exists a1 c

end Delay

/-! ## `[pipe]` -/

namespace Pipe

/-! ### Specification -/

/-- a delay line for messages: how long a message takes, the messages on their way with the times they will come out, first those that
come out first, and those that have come out -/
structure Line where
  wait : Nat
  inside : List (Nat × Msg)
  out : List (Nat × Msg)
  deriving DecidableEq

/-- a message that comes out at `t` comes after all that come out not later -/
def put {α : Type} (t : Nat) (m : α) (l : List (Nat × α)) : List (Nat × α) :=
  l.takeWhile (fun x => decide (x.1 ≤ t)) ++ (t, m) :: l.dropWhile (fun x => decide (x.1 ≤ t))

/-- there is place for eight messages -/
def Line.on (sr : ℚ) (P : Line) : Ev → Line
  | .ext _ 0 (.sym "clear" :: _) => { P with inside := [] }
  | .ext t 0 m => if P.inside.length < 8 then { P with inside := put (t + P.wait) m P.inside } else P
  | .ext _ _ (.float ms :: _) => { P with wait := Lib.wait sr ms }
  | .ext _ _ _ => P
  | .tick =>
    match P.inside with
    | [] => P
    | x :: l => { P with inside := l, out := P.out ++ [x] }

/-- two inlets; `flush` is not among the messages -/
def Fits : Ev → Prop
  | .ext _ 0 (.sym x :: _) => x ≠ "flush"
  | .ext _ i _ => i < 2
  | .tick => True

/-! ### Proofs -/

variable {a1 : ℚ} {c : Ctx} {s s' : St}

theorem run0 {m : Msg} : Ends (sys a1 c) [((0, 0), m)] s s' ↔ s' = (step c (.delay a1) 4 0 m s).1 := by
  have : (step c (.delay a1) 4 0 m s).2 = none := by
    simp only [step, delayStep]
    split <;> try rfl
    split <;> rfl
  rw [ends_cons, n0_0]
  simp only [lib_step]
  rw [n4, endsN_obj, After, this]
  simp only [lib_step]

theorem run1 {m : Msg} : Ends (sys a1 c) [((0, 1), m)] s s' ↔ s' = (step c (.delay a1) 4 1 m s).1 := by
  match m with
  | [] => simp [lib_step, lib_pipe, step, delayStep]
  | .bang :: _ => simp [lib_step, lib_pipe, step, delayStep]
  | .sym _ :: _ => simp [lib_step, lib_pipe, step, delayStep]
  | .float q :: m' => simp [lib_step, lib_pipe]

theorem tick_run {m : Msg} : Ends (sys a1 c) [((3, 0), m)] s s' ↔ s' = { s with log := s.log ++ [(s.now, 0, m)] } := by
  simp [lib_step, lib_pipe]

/-- what is in the queue -/
def pends (l : List (Nat × Msg)) : List Pend := l.map fun x => ⟨x.1, 4, x.2⟩

theorem insert_pends (t : Nat) (m : Msg) (l : List (Nat × Msg)) : insert ⟨t, 4, m⟩ (pends l) = pends (put t m l) := by
  simp only [insert, put, pends, List.map_append, List.map_cons]
  induction l with
  | nil => rfl
  | cons x l ih =>
    simp only [List.map_cons]
    by_cases h : x.1 ≤ t
    · simp only [h, decide_true, List.takeWhile_cons_of_pos, List.dropWhile_cons_of_pos, List.cons_append, List.map_cons]
      rw [ih]
    · simp only [h, decide_false, Bool.false_eq_true, not_false_eq_true, List.takeWhile_cons_of_neg, List.dropWhile_cons_of_neg,
        List.nil_append, List.map_nil, List.map_cons]

structure Sim (P : Line) (s : St) : Prop where
  queue : s.q = pends P.inside
  log : s.log = P.out.map fun x => (x.1, 0, x.2)
  wait : ⌊num (s.mem 4)⌋.toNat = P.wait

theorem waiting_pends (l : List (Nat × Msg)) : (waiting 4 (pends l)).length = l.length := by
  simp [waiting, pends, List.filter_map]

theorem Sim.put {P : Line} {t : Nat} {m : Msg} (h : Sim P s) :
    Sim (if P.inside.length < 8 then { P with inside := put (t + P.wait) m P.inside } else P)
      (if (waiting 4 s.q).length < maxMessages then
        (({ s with now := t, q := insert ⟨t + ⌊num (s.mem 4)⌋.toNat, 4, m⟩ s.q }, none) : Res)
      else ({ s with now := t }, none)).1 := by
  rw [h.queue, waiting_pends, h.wait, insert_pends]
  by_cases h8 : P.inside.length < 8
  · rw [if_pos h8, if_pos (show P.inside.length < maxMessages from h8)]
    exact ⟨rfl, h.log, h.wait⟩
  · rw [if_neg h8, if_neg (show ¬ P.inside.length < maxMessages from h8)]
    exact ⟨rfl, h.log, h.wait⟩

theorem Sim.step {P : Line} {e : Ev} (h : Sim P s) (hf : Fits e) (hc : Can s e) :
    ∃ s', Happens (mach a1 c) drv e s s' ∧ Sim (P.on c.sr e) s' := by
  cases e with
  | ext t i m =>
    match i with
    | 0 =>
      refine ⟨_, happens_ext.mpr ⟨hc.1, hc.2, run0.mpr rfl⟩, ?_⟩
      match m with
      | [] => exact h.put
      | .bang :: _ => exact h.put
      | .float _ :: _ => exact h.put
      | .sym x :: m =>
        by_cases hx : x = "clear"
        · subst hx
          refine ⟨?_, h.log, h.wait⟩
          simp only [lib_step]
          rw [h.queue]
          have : (pends P.inside).filter (fun p => !decide (p.obj = 4)) = [] := by
            rw [List.filter_eq_nil_iff]
            intro a ha
            obtain ⟨x, -, rfl⟩ := List.mem_map.mp ha
            simp
          simpa [Line.on, pends] using this
        · have e1 : P.on c.sr (.ext t 0 (.sym x :: m)) =
              if P.inside.length < 8 then { P with inside := Pipe.put (t + P.wait) (.sym x :: m) P.inside } else P := by
            simp only [Line.on]
            split
            · rename_i h'; simp_all
            · rename_i h'; simp_all
            · rename_i h'; simp_all
            · simp_all
            · simp_all
          have e2 : Lib.step c (.delay a1) 4 0 (.sym x :: m) { s with now := t } =
              if (waiting 4 s.q).length < maxMessages then
                (({ s with now := t, q := insert ⟨t + ⌊num (s.mem 4)⌋.toNat, 4, .sym x :: m⟩ s.q }, none) : Res)
              else ({ s with now := t }, none) := by
            have hx' : x ≠ "flush" := hf
            simp only [Lib.step, delayStep]
            split <;> simp_all
          rw [e1, e2]
          exact h.put
    | 1 =>
      refine ⟨_, happens_ext.mpr ⟨hc.1, hc.2, run1.mpr rfl⟩, ?_⟩
      match m with
      | [] => exact ⟨h.queue, h.log, h.wait⟩
      | .bang :: _ => exact ⟨h.queue, h.log, h.wait⟩
      | .sym _ :: _ => exact ⟨h.queue, h.log, h.wait⟩
      | .float q :: _ =>
        refine ⟨h.queue, h.log, ?_⟩
        simp only [lib_step]
        exact floor_wait c.sr q
    | i + 2 =>
      exfalso
      unfold Fits at hf
      split at hf
      · rename_i he
        simp at he
      · rename_i he
        simp only [Ev.ext.injEq] at he
        omega
      · rename_i he
        simp at he
  | tick =>
    have hq := h.queue
    cases hn : P.inside with
    | nil => rw [hn] at hq; exact absurd hq hc
    | cons x l =>
      rw [hn] at hq
      refine ⟨_, happens_tick.mpr ⟨_, _, hq, tick_run.mpr rfl⟩, ?_⟩
      simp only [Line.on, hn]
      refine ⟨rfl, ?_, h.wait⟩
      simp only [h.log, List.map_append]
      rfl

theorem Fits.inlet {e : Ev} (h : Fits e) : Inlet e := by
  unfold Fits at h
  split at h <;> simp_all [Inlet]

theorem sim (tab : Nat → List ℚ) : Simulates (mach a1 c) drv (start c (nodes a1) tab) Fits (Line.on c.sr)
    ⟨wait c.sr a1, [], []⟩ Sim where
  boot := by
    have hb : Ends (sys a1 c) [] (start c (nodes a1) tab) _ := ends_nil.mpr rfl
    exact ⟨_, hb, rfl, rfl, floor_wait c.sr a1⟩
  step := Sim.step

/-- **C67**: the generated code of `[pipe a1]` is a delay line for messages, with place for eight of them.  It never gets stuck. -/
theorem pipe_line (M : Mach) (hM : Code a1 c M) (tab : Nat → List ℚ) :
    (∀ (es : List Ev) (_ : ∀ e ∈ es, Fits e) (s : St), Runs M drv (start c (nodes a1) tab) es s →
      let P := es.foldl (Line.on c.sr) ⟨wait c.sr a1, [], []⟩
      s.log = P.out.map (fun x => (x.1, 0, x.2)) ∧ s.q.map (fun p => (p.time, p.msg)) = P.inside) ∧
    (∃ s, Runs M drv (start c (nodes a1) tab) [] s) ∧
    ∀ (es : List Ev) (_ : ∀ e ∈ es, Fits e) (s : St) (_ : Runs M drv (start c (nodes a1) tab) es s) (e : Ev), Fits e → Can s e →
      ∃ s', Happens M drv e s s' := by
  have hs := to_code hM (fun _ => Fits.inlet) (sim (c := c) (a1 := a1) tab)
  refine ⟨fun es hf s h => ?_, hs.goes_on⟩
  have := (hs.runs hf h).1
  refine ⟨this.log, ?_⟩
  rw [this.queue]
  simp [pends, List.map_map, Function.comp_def]

/-! ### a constant delay -/

/-- the messages that go in -/
def inputs : List Ev → List (Nat × Msg)
  | [] => []
  | .ext t 0 m :: es => (t, m) :: inputs es
  | _ :: es => inputs es

/-- only messages at the left inlet, neither `clear` nor `flush` -/
def Plain : Ev → Prop
  | .ext _ 0 (.sym x :: _) => x ≠ "flush" ∧ x ≠ "clear"
  | .ext _ i _ => i = 0
  | .tick => True

theorem Plain.fits {e : Ev} (h : Plain e) : Fits e := by
  unfold Plain at h
  split at h
  · exact h.1
  · subst h
    rename_i m hm
    match m with
    | [] => simp [Fits]
    | .bang :: _ => simp [Fits]
    | .float _ :: _ => simp [Fits]
    | .sym x :: m => exact absurd rfl (hm x m rfl)
  · trivial

theorem Plain.on {sr : ℚ} {P : Line} {t i : Nat} {m : Msg} (h : Plain (.ext t i m)) : i = 0 ∧ P.on sr (.ext t i m) =
    if P.inside.length < 8 then { P with inside := put (t + P.wait) m P.inside } else P := by
  unfold Plain at h
  split at h
  · rename_i x m' he
    simp only [Ev.ext.injEq] at he
    obtain ⟨rfl, rfl, rfl⟩ := he
    refine ⟨rfl, ?_⟩
    simp only [Line.on]
    split <;> simp_all
  · rename_i he
    simp only [Ev.ext.injEq] at he
    obtain ⟨rfl, rfl, rfl⟩ := he
    subst h
    refine ⟨rfl, ?_⟩
    rename_i hm
    match m with
    | [] => rfl
    | .bang :: _ => rfl
    | .float _ :: _ => rfl
    | .sym x :: m => exact absurd rfl (hm x m rfl)
  · simp at *

/-- something comes in at a time that is not before the last one -/
theorem put_last {α : Type} {t : Nat} {m : α} {l : List (Nat × α)} (h : ∀ x ∈ l, x.1 ≤ t) : put t m l = l ++ [(t, m)] := by
  have h1 : l.takeWhile (fun x => decide (x.1 ≤ t)) = l ∧ l.dropWhile (fun x => decide (x.1 ≤ t)) = [] := by
    induction l with
    | nil => exact ⟨rfl, rfl⟩
    | cons x l ih =>
      have hx := h x (List.mem_cons_self ..)
      obtain ⟨i1, i2⟩ := ih fun y hy => h y (List.mem_cons_of_mem _ hy)
      simp [hx, i1, i2]
  rw [put, h1.1, h1.2]

/-- never more than eight messages are inside: at each message that goes in, fewer than eight of those before have not come out -/
def Room : Nat → List Ev → Prop
  | _, [] => True
  | n, .tick :: es => Room (n - 1) es
  | n, .ext _ _ _ :: es => n < 8 ∧ Room (n + 1) es

/-- the times never go back -/
def Forward : Nat → List Ev → Prop
  | _, [] => True
  | t, .tick :: es => Forward t es
  | t, .ext t' _ _ :: es => t ≤ t' ∧ Forward t' es

theorem line_constant {sr : ℚ} (es : List Ev) (hp : ∀ e ∈ es, Plain e) (P : Line) (t : Nat) (ht : ∀ x ∈ P.inside, x.1 ≤ t + P.wait)
    (hf : Forward t es) (hr : Room P.inside.length es) :
    (es.foldl (Line.on sr) P).out ++ (es.foldl (Line.on sr) P).inside =
      P.out ++ P.inside ++ (inputs es).map fun x => (x.1 + P.wait, x.2) := by
  induction es generalizing P t with
  | nil => simp [inputs]
  | cons e es ih =>
    have ih := fun P t => ih (fun e he => hp e (List.mem_cons_of_mem _ he)) P t
    rw [List.foldl_cons]
    cases e with
    | ext t' i m =>
      obtain ⟨rfl, e1⟩ := Plain.on (sr := sr) (P := P) (hp _ (List.mem_cons_self ..))
      rw [e1, if_pos hr.1, put_last fun x hx => Nat.le_trans (ht x hx) (Nat.add_le_add_right hf.1 _)]
      rw [ih _ t' ?_ hf.2 ?_]
      · simp [inputs]
      · intro x hx
        rcases List.mem_append.mp hx with hx | hx
        · exact Nat.le_trans (ht x hx) (Nat.add_le_add_right hf.1 _)
        · simp only [List.mem_singleton] at hx
          rw [hx]
      · simpa using hr.2
    | tick =>
      obtain ⟨w, ins, out⟩ := P
      cases ins with
      | nil => exact ih ⟨w, [], out⟩ t ht hf hr
      | cons x l =>
        have := ih ⟨w, l, out ++ [x]⟩ t (fun y hy => ht y (List.mem_cons_of_mem _ hy)) hf hr
        simpa [Line.on, inputs] using this

/-- **C67**: with a constant delay, and never more than eight messages inside, every message comes out unchanged, exactly once, `a1` ms
after it went in, in order: what has come out, followed by what is inside, is what went in -/
theorem pipe_constant_partial (M : Mach) (hM : Code a1 c M) (tab : Nat → List ℚ) (es : List Ev) (hp : ∀ e ∈ es, Plain e)
    (hf : Forward 0 es) (hr : Room 0 es) (s : St) (h : Runs M drv (start c (nodes a1) tab) es s) :
    s.log ++ s.q.map (fun p => (p.time, 0, p.msg)) = (inputs es).map fun x => (x.1 + wait c.sr a1, 0, x.2) := by
  have h1 := (pipe_line M hM tab).1 es (fun e he => (hp e he).fits) s h
  have h2 := line_constant (sr := c.sr) es hp ⟨wait c.sr a1, [], []⟩ 0 (by simp) hf hr
  have h3 : s.q.map (fun p => (p.time, 0, p.msg)) =
      (s.q.map fun p => (p.time, p.msg)).map fun x => (x.1, 0, x.2) := by
    simp [List.map_map, Function.comp_def]
  rw [h3, h1.1, h1.2, ← List.map_append, h2]
  simp [List.map_map, Function.comp_def]

/-- **C67** (F82): a ninth message is lost -/
theorem pipe_ninth_lost (M : Mach) (hM : Code a1 c M) (tab : Nat → List ℚ) (es : List Ev) (hf : ∀ e ∈ es, Fits e) (s s' : St)
    (h : Runs M drv (start c (nodes a1) tab) es s) (t : Nat) (q : ℚ) (he : Happens M drv (.ext t 0 [.float q]) s s')
    (h8 : 8 ≤ s.q.length) : s'.log = s.log ∧ s'.q = s.q := by
  have hs := to_code hM (fun _ => Fits.inlet) (sim (c := c) (a1 := a1) tab)
  have h1 := (hs.runs hf h).1
  have hf' : ∀ e ∈ es ++ [.ext t 0 [.float q]], Fits e := by
    intro e he
    rcases List.mem_append.mp he with he | he
    · exact hf e he
    · simp only [List.mem_singleton] at he
      subst he
      simp [Fits]
  have h2 := (hs.runs hf' (h.snoc he)).1
  rw [List.foldl_append] at h2
  simp only [List.foldl_cons, List.foldl_nil, Line.on] at h2
  rw [if_neg (by have := h1.queue; rw [this, pends, List.length_map] at h8; omega)] at h2
  exact ⟨by rw [h1.log, h2.log], by rw [h1.queue, h2.queue]⟩

example (a1 : ℚ) (c : Ctx) : ∃ M, Code a1 c M := code_exists a1 c

/-- three messages through a pipe of 10 samples; nine at once -/
example : ([.ext 1 0 [.float 60], .ext 3 0 [.sym "a", .float 2], .tick, .ext 11 0 [.bang], .tick] : List Ev).foldl (Line.on 1000)
      ⟨10, [], []⟩ = ⟨10, [(21, [.bang])], [(11, [.float 60]), (13, [.sym "a", .float 2])]⟩ ∧
    ((List.replicate 9 (Ev.ext 1 0 [.bang])).foldl (Line.on 1000) ⟨10, [], []⟩).inside.length = 8 := by
  decide

example : Room 0 [.ext 1 0 [.float 60], .ext 3 0 [.sym "a", .float 2], .tick, .ext 11 0 [.bang], .tick] ∧
    Forward 0 [.ext 1 0 [.float 60], .ext 3 0 [.sym "a", .float 2], .tick, .ext 11 0 [.bang], .tick] := by
  simp [Room, Forward]

end Pipe

end Verif.Lib
