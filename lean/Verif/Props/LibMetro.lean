import Verif.Lib.Metro
import Mathlib.Tactic.Linarith
/-!
C66: `[metro]`.
-/
namespace Verif.Lib.Metro
open Verif.Control (Dest Kind Cast Patch Act Sys Env Big)

/-! ## Specification -/

/-- a metronome: its period in samples, when the next bang is due, and when it has banged -/
structure Metronome where
  period : Nat
  next : Option Nat
  bangs : List Nat

/-- milliseconds in whole samples, at least one -/
def samples (sr ms : ℚ) : Nat := max 1 ⌊ms * sr / 1000⌋.toNat

/-- a bang now, and one after a period -/
def Metronome.bang (M : Metronome) (t : Nat) : Metronome :=
  { M with next := some (t + M.period), bangs := M.bangs ++ [t] }

/-- `0` and `stop` -/
def Stops (m : Msg) : Prop := key m = .float 0 ∨ key m = .sym "stop"

instance (m : Msg) : Decidable (Stops m) := inferInstanceAs (Decidable (_ ∨ _))

/-- what a metronome does: any message at the left inlet starts it (anew), `0` and `stop` stop it; a number at the right inlet is
the period for the bangs to be scheduled from now on; when the next bang is due it bangs. -/
def Metronome.on (sr : ℚ) (M : Metronome) : Ev → Metronome
  | .ext t 0 m => if Stops m then { M with next := none } else M.bang t
  | .ext _ _ (.float ms :: _) => { M with period := samples sr ms }
  | .ext _ _ _ => M
  | .tick =>
    match M.next with
    | some t => M.bang t
    | none => M

/-- messages for two inlets; the right one gets single numbers -/
def Fits : Ev → Prop
  | .ext _ 0 _ => True
  | .ext _ 1 [.float _] => True
  | .ext _ _ _ => False
  | .tick => True

/-! ## Proofs -/

variable {a1 : ℚ} {c : Ctx} {s s' : St}

theorem stop_run {m : Msg} (h : Stops m) :
    Ends (sys a1 c) [((0, 0), m)] s s' ↔ s' = { s with q := s.q.filter fun p => !decide (p.obj = 7) } := by
  rcases h with h | h <;> simp [lib_step, lib_metro, h, List.findIdx_cons]

theorem start_run {m : Msg} (h : ¬ Stops m) :
    Ends (sys a1 c) [((0, 0), m)] s s' ↔ s' = { s with
      q := insert ⟨s.now + ⌊num (s.mem 7)⌋.toNat, 7, [.bang]⟩ (s.q.filter fun p => !decide (p.obj = 7)),
      log := s.log ++ [(s.now, 0, [.bang])] } := by
  have h1 : ¬ Atom.float 0 = key m := fun e => h (.inl e.symm)
  have h2 : ¬ Atom.sym "stop" = key m := fun e => h (.inr e.symm)
  have e : waiting 7 (s.q.filter fun p => !decide (p.obj = 7)) = [] := by
    simp [waiting]
  simp [lib_step, lib_metro, h1, h2, List.findIdx_cons, e, maxMessages]

theorem period_run {f : ℚ} :
    Ends (sys a1 c) [((0, 1), [.float f])] s s' ↔
      s' = (s.set 22 [.float f]).set 7 [.float ⌊max 0 (max (f * num (s.mem 20)) 1)⌋] := by
  simp [lib_step, lib_metro, Op.eval]

theorem tick_run (hw : (waiting 7 s.q).length < 8) :
    Ends (sys a1 c) [((6, 0), [.bang])] s s' ↔ s' = { s with
      q := insert ⟨s.now + ⌊num (s.mem 7)⌋.toNat, 7, [.bang]⟩ s.q,
      log := s.log ++ [(s.now, 0, [.bang])] } := by
  simp [lib_step, lib_metro, hw, maxMessages]

theorem boot_run (h : s.mem 22 = [.float a1]) : Ends (sys a1 c) [((29, 0), [.bang])] s s' ↔
    s' = (s.set 20 [.float (c.sr / 1000)]).set 7 [.float ⌊max 0 (max (a1 * (c.sr / 1000)) 1)⌋] := by
  simp [lib_step, lib_metro, Op.eval, h]

theorem samples_floor (sr f : ℚ) : ⌊((⌊max 0 (max (f * (sr / 1000)) 1)⌋ : Int) : ℚ)⌋.toNat = samples sr f := by
  rw [Int.floor_intCast, samples]
  have e : f * (sr / 1000) = f * sr / 1000 := by ring
  rw [e]
  generalize f * sr / 1000 = x
  have h1 : ⌊max 0 (max x 1)⌋ = max ⌊x⌋ 1 := by
    rw [max_eq_right (le_trans zero_le_one (le_max_right x 1))]
    rcases le_total x 1 with h | h
    · rw [max_eq_right h, Int.floor_one]
      have : ⌊x⌋ ≤ 1 := by
        have := Int.floor_le_floor h
        simpa using this
      omega
    · rw [max_eq_left h]
      have : (1 : Int) ≤ ⌊x⌋ := Int.le_floor.mpr (by simpa using h)
      omega
  rw [h1]
  omega

/-- the state and the metronome -/
structure Sim (c : Ctx) (M : Metronome) (s : St) : Prop where
  queue : s.q = M.next.toList.map fun t => ⟨t, 7, [.bang]⟩
  log : s.log = M.bangs.map fun t => (t, 0, [.bang])
  period : ⌊num (s.mem 7)⌋.toNat = M.period
  factor : num (s.mem 20) = c.sr / 1000

theorem Sim.clear {M : Metronome} (h : Sim c M s) : s.q.filter (fun p => !decide (p.obj = 7)) = [] := by
  rw [h.queue]
  cases M.next <;> simp

theorem Sim.step {M : Metronome} {e : Ev} (h : Sim c M s) (hf : Fits e) (hc : Can s e) :
    ∃ s', Happens (mach a1 c) drv e s s' ∧ Sim c (M.on c.sr e) s' := by
  cases e with
  | ext t i m =>
    match i, m, hf with
    | 0, m, _ =>
      by_cases hm : Stops m
      · refine ⟨_, happens_ext.mpr ⟨hc.1, hc.2, (stop_run hm).mpr rfl⟩, ?_⟩
        simp only [Metronome.on, hm, if_true]
        exact ⟨by simp only [h.clear]; rfl, h.log, h.period, h.factor⟩
      · refine ⟨_, happens_ext.mpr ⟨hc.1, hc.2, (start_run hm).mpr rfl⟩, ?_⟩
        simp only [Metronome.on, hm, if_false]
        refine ⟨?_, ?_, h.period, h.factor⟩
        · simp only [h.clear, h.period, Metronome.bang]
          rfl
        · simp only [h.log, Metronome.bang, List.map_append]
          rfl
    | 1, [.float ms], _ =>
      refine ⟨_, happens_ext.mpr ⟨hc.1, hc.2, period_run.mpr rfl⟩, h.queue, h.log, ?_, ?_⟩
      · simp only [lib_step, Metronome.on, h.factor]
        exact samples_floor c.sr ms
      · simp only [lib_step]
        exact h.factor
  | tick =>
    have hq := h.queue
    cases hn : M.next with
    | none => rw [hn] at hq; exact absurd hq hc
    | some t =>
      rw [hn] at hq
      refine ⟨_, happens_tick.mpr ⟨_, _, hq, (tick_run (by simp [waiting])).mpr rfl⟩, ?_⟩
      simp only [Metronome.on, hn]
      refine ⟨?_, ?_, h.period, h.factor⟩
      · simp only [h.period, Metronome.bang]
        rfl
      · simp only [h.log, Metronome.bang, List.map_append]
        rfl

theorem Fits.inlet {e : Ev} (h : Fits e) : Inlet e := by
  unfold Fits at h
  split at h <;> simp_all [Inlet]

theorem sim (tab : Nat → List ℚ) : Simulates (mach a1 c) drv (start c (nodes a1) tab) Fits (Metronome.on c.sr)
    ⟨samples c.sr a1, none, []⟩ (Sim c) where
  boot := by
    have hb : Ends (sys a1 c) [((29, 0), [.bang])] (start c (nodes a1) tab) _ := (boot_run rfl).mpr rfl
    refine ⟨_, hb, rfl, rfl, ?_, ?_⟩
    · simp only [lib_step]
      exact samples_floor c.sr a1
    · simp only [lib_step]
  step := Sim.step

/-- **C66**: the generated code of `[metro a1]` is a metronome: whatever is sent to it and whenever, what comes out of it, and when,
is what comes out of a metronome with the period `a1` ms, and the message queue has one message if the metronome has a next bang, due
at that time, and none otherwise.

The period is in whole samples; the right inlet gets single numbers. -/
theorem metro_partial (M : Mach) (hM : Code a1 c M) (tab : Nat → List ℚ) (es : List Ev) (hf : ∀ e ∈ es, Fits e) (s : St)
    (h : Runs M drv (start c (nodes a1) tab) es s) :
    let N := es.foldl (Metronome.on c.sr) ⟨samples c.sr a1, none, []⟩
    s.log = N.bangs.map (fun t => (t, 0, [.bang])) ∧ s.q.map (·.time) = N.next.toList := by
  have := ((to_code hM (fun _ => Fits.inlet) (sim tab)).runs hf h).1
  refine ⟨this.log, ?_⟩
  rw [this.queue]
  cases (es.foldl (Metronome.on c.sr) ⟨samples c.sr a1, none, []⟩).next <;> rfl

/-- **C66**: it never gets stuck: the program starts, and whatever can happen is dealt with -/
theorem metro_goes_on (M : Mach) (hM : Code a1 c M) (tab : Nat → List ℚ) :
    (∃ s, Runs M drv (start c (nodes a1) tab) [] s) ∧
    ∀ (es : List Ev) (_ : ∀ e ∈ es, Fits e) (s : St) (_ : Runs M drv (start c (nodes a1) tab) es s) (e : Ev),
      Fits e → Can s e → ∃ s', Happens M drv e s s' :=
  (to_code hM (fun _ => Fits.inlet) (sim tab)).goes_on

theorem foldl_ticks (sr : ℚ) (k : Nat) (N : Metronome) (t : Nat) (h : N.next = some t) :
    (List.replicate k Ev.tick).foldl (Metronome.on sr) N =
      ⟨N.period, some (t + k * N.period), N.bangs ++ (List.range k).map fun i => t + i * N.period⟩ := by
  induction k generalizing N t with
  | zero => simp [← h]
  | succ k ih =>
    rw [List.replicate_succ, List.foldl_cons, ih _ (t + N.period) (by simp [Metronome.on, h, Metronome.bang])]
    simp only [Metronome.on, h, Metronome.bang, Metronome.mk.injEq, List.range_succ_eq_map, List.map_cons, List.map_map,
      List.append_assoc, List.singleton_append, true_and]
    refine ⟨by congr 1; ring, ?_⟩
    congr 2
    · ring
    · refine List.map_congr_left fun i _ => ?_
      simp only [Function.comp, Nat.succ_eq_add_one]
      ring

/-- **C66**: started at the time `t` and left alone, it bangs at `t`, `t + p`, `t + 2p`, ... without end -/
theorem metro_regular (M : Mach) (hM : Code a1 c M) (tab : Nat → List ℚ) (t k : Nat) (m : Msg) (hm : ¬ Stops m) (s : St)
    (h : Runs M drv (start c (nodes a1) tab) (.ext t 0 m :: List.replicate k .tick) s) :
    s.log = (List.range (k + 1)).map (fun i => (t + i * samples c.sr a1, 0, [.bang])) ∧
      s.q.map (·.time) = [t + (k + 1) * samples c.sr a1] := by
  have := metro_partial M hM tab _ (fun e he => by
    rcases List.mem_cons.mp he with rfl | he
    · trivial
    · rw [(List.mem_replicate.mp he).2]; trivial) s h
  simp only [List.foldl_cons] at this
  rw [foldl_ticks c.sr k _ (t + samples c.sr a1) (by simp [Metronome.on, hm, Metronome.bang])] at this
  simp only [Metronome.on, hm, if_false, Metronome.bang] at this
  refine ⟨?_, ?_⟩
  · rw [this.1, List.range_succ_eq_map, List.map_cons, List.nil_append, List.map_append, List.map_map, List.map_map]
    simp only [List.map_cons, List.map_nil, Nat.zero_mul, Nat.add_zero, List.singleton_append]
    congr 1
    refine List.map_congr_left fun i _ => ?_
    simp only [Function.comp, Prod.mk.injEq, and_true, Nat.succ_eq_add_one]
    ring
  · rw [this.2]
    simp only [Option.toList_some, List.cons.injEq, and_true]
    ring

/-- **C66** (F81): the part of the period that is less than a sample is lost at every bang: after `k` periods the metronome is ahead by
`k` times that part -/
theorem metro_drift (sr ms : ℚ) (h : 1 ≤ ms * sr / 1000) (k : Nat) :
    (k : ℚ) * (ms * sr / 1000) - k * samples sr ms = k * Int.fract (ms * sr / 1000) := by
  have h1 : (1 : Int) ≤ ⌊ms * sr / 1000⌋ := Int.le_floor.mpr (by simpa using h)
  have h2 : ((samples sr ms : Nat) : ℚ) = (⌊ms * sr / 1000⌋ : ℚ) := by
    have : ((samples sr ms : Nat) : Int) = ⌊ms * sr / 1000⌋ := by
      simp only [samples]
      omega
    exact_mod_cast this
  rw [h2, Int.fract]
  ring

/-- 120 quavers of 125 ms at 44100 Hz, a quarter of a minute: more than a millisecond too early -/
example : (120 : ℚ) * (125 * 44100 / 1000) - 120 * samples 44100 125 = 60 := by
  have h : ⌊(125 * 44100 / 1000 : ℚ)⌋ = 5512 := by
    rw [Int.floor_eq_iff]
    constructor <;> norm_num
  have h' : samples 44100 125 = 5512 := by rw [samples, h]; rfl
  rw [h']
  norm_num

/-- such histories exist, of any length -/
theorem metro_regular_exists (M : Mach) (hM : Code a1 c M) (tab : Nat → List ℚ) (t k : Nat) (m : Msg) (hm : ¬ Stops m) :
    ∃ s, Runs M drv (start c (nodes a1) tab) (.ext t 0 m :: List.replicate k .tick) s := by
  obtain ⟨⟨s0, h0⟩, hg⟩ := metro_goes_on M hM tab
  induction k with
  | zero =>
    have hq : s0.q = [] := ((to_code hM (fun _ => Fits.inlet) (sim tab)).runs (by simp) h0).1.queue
    have hnow : s0.now = 0 := by
      obtain ⟨s1, h1, h2⟩ := h0
      cases h2
      replace h1 : Ends (sys a1 c) [((29, 0), [.bang])] (start c (nodes a1) tab) s0 := (booted_code (checked a1) (classes a1) hM).mp h1
      rw [boot_run (by rfl)] at h1
      rw [h1]; rfl
    obtain ⟨s', h1⟩ := hg [] (by simp) s0 h0 (.ext t 0 m) trivial ⟨by rw [hnow]; exact Nat.zero_le _, by rw [hq]; simp⟩
    exact ⟨s', h0.snoc h1⟩
  | succ k ih =>
    obtain ⟨s, h⟩ := ih
    have hq := (metro_regular M hM tab t k m hm s h).2
    obtain ⟨s', h1⟩ := hg _ (fun e he => by
      rcases List.mem_cons.mp he with rfl | he
      · trivial
      · rw [(List.mem_replicate.mp he).2]; trivial) s h .tick trivial (fun e => by rw [e] at hq; simp at hq)
    have := h.snoc h1
    rw [List.cons_append, ← List.replicate_succ'] at this
    exact ⟨s', this⟩

/-- `[metro 1000]` at 44100 Hz, started at sample 100 -/
example : ∃ M, Code 1000 ⟨44100, fun _ => none, fun _ _ => 0, fun _ _ => 0, 1⟩ M ∧
    ∃ s, Runs M drv (start ⟨44100, fun _ => none, fun _ _ => 0, fun _ _ => 0, 1⟩ (nodes 1000) fun _ => []) [.ext 100 0 [.bang], .tick, .tick] s ∧
      s.log = [(100, 0, [.bang]), (44200, 0, [.bang]), (88300, 0, [.bang])] := by
  obtain ⟨M, hM⟩ := code_exists 1000 ⟨44100, fun _ => none, fun _ _ => 0, fun _ _ => 0, 1⟩
  have hS : ¬ Stops [.bang] := by decide
  obtain ⟨s, h⟩ := metro_regular_exists M hM (fun _ => []) 100 2 [.bang] hS
  refine ⟨M, hM, s, h, ?_⟩
  rw [(metro_regular M hM (fun _ => []) 100 2 [.bang] hS s h).1]
  have : samples 44100 1000 = 44100 := by
    have h : ⌊(1000 * 44100 / 1000 : ℚ)⌋ = 44100 := by
      rw [Int.floor_eq_iff]
      constructor <;> norm_num
    rw [samples, h]
    rfl
  simp only [this]
  rfl

/-- messages that stop it and messages that do not -/
example : Stops [.float 0] ∧ Stops [.sym "stop"] ∧ ¬ Stops [.float 1] ∧ ¬ Stops [.bang] ∧ ¬ Stops [.sym "start"] := by decide

end Verif.Lib.Metro
