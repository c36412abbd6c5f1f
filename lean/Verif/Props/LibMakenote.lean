import Verif.Lib.Makenote
import Verif.Props.LibDelay
/-!
C68: `[makenote]`.
-/
namespace Verif.Lib.Makenote
open Verif.Control (Dest Kind Cast Patch Act Sys Env Big)
open Verif.Lib.Pipe (put)

/-! ## Specification -/

/-- a player of notes: velocity and duration (samples) of the notes to come, the ends that are due (when, pitch), and what has been
played: (when, pitch, velocity), an end has velocity 0 -/
structure Player where
  vel : ℚ
  dur : Nat
  due : List (Nat × ℚ)
  played : List (Nat × ℚ × ℚ)
  deriving DecidableEq

/-- a pitch at the left inlet plays a note now and its end after the duration, if the velocity is not 0; there is place for eight
ends -/
def Player.on (sr : ℚ) (P : Player) : Ev → Player
  | .ext t 0 (.float p :: _) =>
    if P.vel = 0 then P
    else { P with due := if P.due.length < 8 then put (t + P.dur) p P.due else P.due, played := P.played ++ [(t, p, P.vel)] }
  | .ext _ 1 (.float v :: _) => { P with vel := v }
  | .ext _ 2 (.float ms :: _) => { P with dur := Lib.wait sr ms }
  | .ext _ _ _ => P
  | .tick =>
    match P.due with
    | [] => P
    | x :: l => { P with due := l, played := P.played ++ [(x.1, x.2, 0)] }

/-- three inlets, single numbers -/
def Fits : Ev → Prop
  | .ext _ 0 [.float _] => True
  | .ext _ 1 [.float _] => True
  | .ext _ 2 [.float _] => True
  | .ext _ _ _ => False
  | .tick => True

/-- a note comes out as its velocity at the right outlet, then its pitch at the left one -/
def played (l : List (Nat × ℚ × ℚ)) : List (Nat × Nat × Msg) :=
  l.flatMap fun x => [(x.1, 1, [.float x.2.2]), (x.1, 0, [.float x.2.1])]

/-! ## Proofs -/

variable {a1 a2 : ℚ} {c : Ctx} {s s' : St}

theorem pitch_run {p : ℚ} : Ends (sys a1 a2 c) [((0, 0), [.float p])] s s' ↔
    s' = if num (s.mem 25) = 0 then s
      else { s with
        q := if (waiting 18 s.q).length < 8 then insert ⟨s.now + ⌊num (s.mem 18)⌋.toNat, 18, [.float p]⟩ s.q else s.q,
        log := s.log ++ [(s.now, 1, s.mem 32), (s.now, 0, [.float p])] } := by
  by_cases h : num (s.mem 25) = 0 <;> by_cases h8 : (waiting 18 s.q).length < 8 <;>
    simp [lib_step, lib_makenote, h, h8, maxMessages]

theorem vel_run {v : ℚ} : Ends (sys a1 a2 c) [((0, 1), [.float v])] s s' ↔
    s' = ((s.set 27 [.float v]).set 25 [.float (tf (v ≠ 0))]).set 32 [.float v] := by
  simp [lib_step, lib_makenote, Op.eval]

theorem dur_run {ms : ℚ} : Ends (sys a1 a2 c) [((0, 2), [.float ms])] s s' ↔
    s' = (s.set 9 [.float ms]).set 18 [.float ⌊max 0 ms * c.sr / 1000⌋] := by
  simp [lib_step, lib_makenote, Op.eval, max_comm]

theorem tick_run {p : ℚ} : Ends (sys a1 a2 c) [((17, 0), [.float p])] s s' ↔
    s' = { s with log := s.log ++ [(s.now, 1, [.float 0]), (s.now, 0, [.float p])] } := by
  simp [lib_step, lib_makenote, Elem.fill]

theorem boot_run (h1 : s.mem 9 = [.float a2]) (h2 : s.mem 27 = [.float a1]) :
    Ends (sys a1 a2 c) [((7, 0), [.bang])] s s' ↔
    s' = ((s.set 18 [.float ⌊max 0 a2 * c.sr / 1000⌋]).set 25 [.float (tf (a1 ≠ 0))]).set 32 [.float a1] := by
  simp [lib_step, lib_makenote, Op.eval, h1, h2, max_comm]

/-- what is in the queue -/
def pends (l : List (Nat × ℚ)) : List Pend := l.map fun x => ⟨x.1, 18, [.float x.2]⟩

theorem insert_pends (t : Nat) (p : ℚ) (l : List (Nat × ℚ)) : insert ⟨t, 18, [.float p]⟩ (pends l) = pends (put t p l) := by
  simp only [insert, put, pends, List.map_append, List.map_cons]
  induction l with
  | nil => rfl
  | cons x l ih =>
    simp only [List.map_cons]
    by_cases h : x.1 ≤ t
    · simp only [h, decide_true, List.takeWhile_cons_of_pos, List.dropWhile_cons_of_pos, List.cons_append, List.map_cons]
      rw [ih]
    · simp only [h, decide_false, Bool.false_eq_true, not_false_eq_true, List.takeWhile_cons_of_neg, List.dropWhile_cons_of_neg,
        List.nil_append, List.map_nil, List.map_cons]

theorem waiting_pends (l : List (Nat × ℚ)) : (waiting 18 (pends l)).length = l.length := by
  simp [waiting, pends, List.filter_map]

structure Sim (P : Player) (s : St) : Prop where
  queue : s.q = pends P.due
  log : s.log = played P.played
  gate : num (s.mem 25) = tf (P.vel ≠ 0)
  vel : s.mem 32 = [.float P.vel]
  dur : ⌊num (s.mem 18)⌋.toNat = P.dur

theorem tf_zero {p : Prop} [Decidable p] : tf p = 0 ↔ ¬ p := by
  unfold tf
  split <;> simp_all

theorem Sim.step {P : Player} {e : Ev} (h : Sim P s) (hf : Fits e) (hc : Can s e) :
    ∃ s', Happens (mach a1 a2 c) drv e s s' ∧ Sim (P.on c.sr e) s' := by
  cases e with
  | ext t i m =>
    match i, m, hf with
    | 0, [.float p], _ =>
      refine ⟨_, happens_ext.mpr ⟨hc.1, hc.2, pitch_run.mpr rfl⟩, ?_⟩
      simp only [Player.on]
      by_cases hv : P.vel = 0
      · have hg : num (s.mem 25) = 0 := h.gate.trans (tf_zero.mpr (by simpa using hv))
        rw [if_pos hv]
        simp only [hg, if_true]
        exact ⟨h.queue, h.log, h.gate, h.vel, h.dur⟩
      · have hg : ¬ num (s.mem 25) = 0 := fun e => hv (by simpa using tf_zero.mp (h.gate.symm.trans e))
        rw [if_neg hv]
        simp only [hg, if_false]
        refine ⟨?_, ?_, h.gate, h.vel, h.dur⟩
        · simp only [h.queue, waiting_pends, h.dur, insert_pends]
          by_cases h8 : P.due.length < 8 <;> simp only [h8, if_true, if_false]
        · simp [h.log, h.vel, played]
    | 1, [.float v], _ =>
      refine ⟨_, happens_ext.mpr ⟨hc.1, hc.2, vel_run.mpr rfl⟩, ?_⟩
      simp only [Player.on]
      refine ⟨h.queue, h.log, ?_, ?_, ?_⟩ <;> simp [lib_step]
      exact h.dur
    | 2, [.float ms], _ =>
      refine ⟨_, happens_ext.mpr ⟨hc.1, hc.2, dur_run.mpr rfl⟩, ?_⟩
      simp only [Player.on]
      refine ⟨h.queue, h.log, ?_, ?_, ?_⟩ <;> simp only [lib_step]
      · exact h.gate
      · exact h.vel
      · exact floor_wait c.sr ms
  | tick =>
    have hq := h.queue
    cases hn : P.due with
    | nil => rw [hn] at hq; exact absurd hq hc
    | cons x l =>
      rw [hn] at hq
      refine ⟨_, happens_tick.mpr ⟨_, _, hq, tick_run.mpr rfl⟩, ?_⟩
      simp only [Player.on, hn]
      exact ⟨rfl, by simp [h.log, played], h.gate, h.vel, h.dur⟩

theorem Fits.inlet {e : Ev} (h : Fits e) : Inlet e := by
  unfold Fits at h
  split at h <;> simp_all [Inlet]

theorem sim (tab : Nat → List ℚ) : Simulates (mach a1 a2 c) drv (start c (nodes a1 a2) tab) Fits (Player.on c.sr)
    ⟨a1, Lib.wait c.sr a2, [], []⟩ Sim where
  boot := by
    have hb : Ends (sys a1 a2 c) [((7, 0), [.bang])] (start c (nodes a1 a2) tab) _ := (boot_run rfl rfl).mpr rfl
    refine ⟨_, hb, rfl, rfl, ?_, ?_, ?_⟩ <;> simp only [lib_step]
    exact floor_wait c.sr a2
  step := Sim.step

/-- the player after a history -/
def after (sr a1 a2 : ℚ) (es : List Ev) : Player := es.foldl (Player.on sr) ⟨a1, Lib.wait sr a2, [], []⟩

/-- **C68**: the generated code of `[makenote a1 a2]` plays what the player plays: whatever numbers are sent to it and whenever,
what comes out of it, in which order and when, are the notes of the player with velocity `a1` and duration `a2` ms, and the message
queue has the ends that are due.  It never gets stuck. -/
theorem makenote_plays_partial (M : Mach) (hM : Code a1 a2 c M) (tab : Nat → List ℚ) :
    (∀ (es : List Ev) (_ : ∀ e ∈ es, Fits e) (s : St), Runs M drv (start c (nodes a1 a2) tab) es s →
      s.log = played (after c.sr a1 a2 es).played ∧
      s.q.map (fun p => (p.time, p.msg)) = (after c.sr a1 a2 es).due.map fun x => (x.1, [.float x.2])) ∧
    (∃ s, Runs M drv (start c (nodes a1 a2) tab) [] s) ∧
    ∀ (es : List Ev) (_ : ∀ e ∈ es, Fits e) (s : St) (_ : Runs M drv (start c (nodes a1 a2) tab) es s) (e : Ev), Fits e → Can s e →
      ∃ s', Happens M drv e s s' := by
  have hs := to_code hM (fun _ => Fits.inlet) (sim (c := c) (a1 := a1) (a2 := a2) tab)
  refine ⟨fun es hf s h => ?_, hs.goes_on⟩
  have := (hs.runs hf h).1
  refine ⟨this.log, ?_⟩
  rw [this.queue]
  simp [pends, after, List.map_map, Function.comp_def]

/-! ## every note ends -/

/-- the notes asked for: when, pitch, velocity, when it should end -/
def asked (sr : ℚ) (v : ℚ) (d : Nat) : List Ev → List (Nat × ℚ × ℚ × Nat)
  | [] => []
  | .ext t 0 (.float p :: _) :: es => (if v = 0 then [] else [(t, p, v, t + d)]) ++ asked sr v d es
  | .ext _ 1 (.float v' :: _) :: es => asked sr v' d es
  | .ext _ 2 (.float ms :: _) :: es => asked sr v (Lib.wait sr ms) es
  | _ :: es => asked sr v d es

/-- at each note fewer than eight notes are sounding -/
def Room (sr : ℚ) : Player → List Ev → Prop
  | _, [] => True
  | P, .ext t 0 m :: es => P.due.length < 8 ∧ Room sr (P.on sr (.ext t 0 m)) es
  | P, e :: es => Room sr (P.on sr e) es

theorem put_perm {α : Type} (t : Nat) (a : α) (l : List (Nat × α)) : (put t a l).Perm (l ++ [(t, a)]) := by
  have := List.takeWhile_append_dropWhile (p := fun x : Nat × α => decide (x.1 ≤ t)) (l := l)
  have h2 : (put t a l).Perm ((t, a) :: (l.takeWhile (fun x => decide (x.1 ≤ t)) ++ l.dropWhile (fun x => decide (x.1 ≤ t)))) :=
    List.perm_middle
  rw [this] at h2
  exact h2.trans (List.perm_append_singleton _ _).symm

/-- the notes that have begun, and those that have ended -/
def begun (P : Player) : List (Nat × ℚ × ℚ) := P.played.filter fun x => decide (x.2.2 ≠ 0)
def ended (P : Player) : List (Nat × ℚ) := (P.played.filter fun x => decide (x.2.2 = 0)).map fun x => (x.1, x.2.1)

theorem player_ends {sr : ℚ} (es : List Ev) (hf : ∀ e ∈ es, Fits e) (P : Player) (hr : Room sr P es) :
    begun (es.foldl (Player.on sr) P) = begun P ++ (asked sr P.vel P.dur es).map (fun x => (x.1, x.2.1, x.2.2.1)) ∧
    (ended (es.foldl (Player.on sr) P) ++ (es.foldl (Player.on sr) P).due).Perm
      (ended P ++ P.due ++ (asked sr P.vel P.dur es).map fun x => (x.2.2.2, x.2.1)) := by
  induction es generalizing P with
  | nil => simp [asked]
  | cons e es ih =>
    have ih := ih fun e he => hf e (List.mem_cons_of_mem _ he)
    have hf := hf e (List.mem_cons_self ..)
    rw [List.foldl_cons]
    match e, hf with
    | .ext t 0 [.float p], _ =>
      obtain ⟨i1, i2⟩ := ih _ hr.2
      rw [i1]
      have h8 := hr.1
      simp only [Player.on] at i2 ⊢
      by_cases hv : P.vel = 0
      · simp only [hv, if_true, asked, List.nil_append] at i2 ⊢
        exact ⟨trivial, i2⟩
      · simp only [hv, if_false, h8, if_true, asked, List.singleton_append] at i2 ⊢
        constructor
        · simp [begun, hv]
        · refine i2.trans ?_
          simp only [ended, List.filter_append, List.map_cons]
          simp only [List.filter_cons, List.filter_nil, hv, decide_false, Bool.false_eq_true, if_false, List.append_nil]
          rw [List.append_assoc, List.append_assoc]
          refine List.Perm.append_left _ ?_
          refine ((put_perm _ _ _).append_right _).trans ?_
          rw [List.append_assoc]
          exact List.Perm.refl _
    | .ext t 1 [.float v], _ => exact ih _ hr
    | .ext t 2 [.float ms], _ => exact ih _ hr
    | .tick, _ =>
      obtain ⟨v, d, due, pl⟩ := P
      cases due with
      | nil => exact ih _ hr
      | cons x l =>
        obtain ⟨i1, i2⟩ := ih ⟨v, d, l, pl ++ [(x.1, x.2, 0)]⟩ hr
        constructor
        · refine i1.trans ?_
          simp [begun, asked]
        · refine i2.trans ?_
          simp [ended, asked]

/-- **C68**: if never more than eight notes sound at once, the notes that have begun are exactly the notes asked for, at the times,
with the pitches and velocities asked for, and the notes that have ended together with the ends that are due are exactly the ends
of the notes asked for: no note ends twice or hangs -/
theorem makenote_ends_partial (M : Mach) (hM : Code a1 a2 c M) (tab : Nat → List ℚ) (es : List Ev) (hf : ∀ e ∈ es, Fits e) (s : St)
    (h : Runs M drv (start c (nodes a1 a2) tab) es s) (hr : Room c.sr ⟨a1, Lib.wait c.sr a2, [], []⟩ es) :
    ∃ notes : List (Nat × ℚ × ℚ), s.log = played notes ∧
      notes.filter (fun x => decide (x.2.2 ≠ 0)) =
        (asked c.sr a1 (Lib.wait c.sr a2) es).map (fun x => (x.1, x.2.1, x.2.2.1)) ∧
      ((notes.filter (fun x => decide (x.2.2 = 0))).map (fun x => (x.1, [Atom.float x.2.1])) ++
          s.q.map fun p => (p.time, p.msg)).Perm
        ((asked c.sr a1 (Lib.wait c.sr a2) es).map fun x => (x.2.2.2, [.float x.2.1])) := by
  have h1 := (makenote_plays_partial M hM tab).1 es hf s h
  obtain ⟨h2, h3⟩ := player_ends (sr := c.sr) es hf _ hr
  refine ⟨_, h1.1, by simpa [begun, after] using h2, ?_⟩
  rw [h1.2]
  have := h3.map fun x : Nat × ℚ => (x.1, [Atom.float x.2])
  simpa [ended, after, List.map_map, Function.comp_def] using this

/-- **C68** (F83): with eight notes sounding, a ninth begins and never ends: its end is not scheduled -/
theorem makenote_ninth_hangs (M : Mach) (hM : Code a1 a2 c M) (tab : Nat → List ℚ) (es : List Ev) (hf : ∀ e ∈ es, Fits e) (s s' : St)
    (h : Runs M drv (start c (nodes a1 a2) tab) es s) (t : Nat) (p : ℚ) (he : Happens M drv (.ext t 0 [.float p]) s s')
    (h8 : 8 ≤ s.q.length) (hv : (after c.sr a1 a2 es).vel ≠ 0) :
    s'.log = s.log ++ [(t, 1, [.float (after c.sr a1 a2 es).vel]), (t, 0, [.float p])] ∧ s'.q = s.q := by
  have hs := to_code hM (fun _ => Fits.inlet) (sim (c := c) (a1 := a1) (a2 := a2) tab)
  have h1 := (hs.runs hf h).1
  have hf' : ∀ e ∈ es ++ [.ext t 0 [.float p]], Fits e := by
    intro e he
    rcases List.mem_append.mp he with he | he
    · exact hf e he
    · simp only [List.mem_singleton] at he
      subst he
      trivial
  have h2 := (hs.runs hf' (h.snoc he)).1
  rw [List.foldl_append] at h2
  simp only [List.foldl_cons, List.foldl_nil, Player.on] at h2
  rw [if_neg (show ¬ (es.foldl (Player.on c.sr) ⟨a1, Lib.wait c.sr a2, [], []⟩).vel = 0 from hv), if_neg (by have := h1.queue; rw [this, pends, List.length_map] at h8; omega)] at h2
  refine ⟨?_, by rw [h1.queue, h2.queue]⟩
  rw [h1.log, h2.log]
  simp [played, after]

example (a1 a2 : ℚ) (c : Ctx) : ∃ M, Code a1 a2 c M := code_exists a1 a2 c

/-- two overlapping notes with velocity 100, 500 samples long; nine at once -/
example : ([.ext 10 0 [.float 60], .ext 20 1 [.float 90], .ext 30 0 [.float 64], .tick, .tick] : List Ev).foldl (Player.on 1000)
      ⟨100, 500, [], []⟩ = ⟨90, 500, [], [(10, 60, 100), (30, 64, 90), (510, 60, 0), (530, 64, 0)]⟩ ∧
    ((List.replicate 9 (Ev.ext 1 0 [.float 60])).foldl (Player.on 1000) ⟨100, 500, [], []⟩).due.length = 8 ∧
    ((List.replicate 9 (Ev.ext 1 0 [.float 60])).foldl (Player.on 1000) ⟨100, 500, [], []⟩).played.length = 9 := by
  decide

example : Room 1000 ⟨100, 500, [], []⟩ [.ext 10 0 [.float 60], .ext 20 1 [.float 90], .ext 30 0 [.float 64], .tick, .tick] ∧
    asked 1000 100 500 [.ext 10 0 [.float 60], .ext 20 1 [.float 90], .ext 30 0 [.float 64], .tick, .tick] =
      [(10, 60, 100, 510), (30, 64, 90, 530)] := by
  constructor
  · simp [Room, Player.on, put]
  · decide

end Verif.Lib.Makenote
