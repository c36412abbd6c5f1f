import Verif.Transport
import Verif.Props.Midi
import Mathlib.Algebra.Order.Archimedean.Basic
import Mathlib.Tactic.Linarith
/-!
**C54** the MIDI clock made from the host's transport: 24 ticks per beat, none lost or doubled at the block boundaries.
-/
namespace Verif.Transport
open Verif.Midi (Sent MIDIREALTIMEIN)

namespace Spec

/-- the block plays and has a tempo -/
def counts (p : Pos) : Bool := p.playing && p.valid

/-- samples per MIDI clock tick: a beat has 24 -/
def tickLength (sr bpm : Rat) : Rat := sr * (60 / bpm) / 24

/-- a message to `[midirealtimein]` after `ms` milliseconds -/
def message (ms : Rat) (byte : Nat) : Sent := ⟨Midi.Spec.nameHash "__hv_midirealtimein", ms, [(byte : Rat), 0]⟩

/-- the tempo `x` samples after the transport first started (time during which it was stopped not counted), when the blocks `bs` follow on
`S` samples; `d` behind the last of them -/
def tempoAt (d : Rat) : Nat → List (Pos × Nat) → Rat → Rat
  | _, [], _ => d
  | S, (p, n) :: bs, x => if counts p then if x < S + n then p.bpm else tempoAt d (S + n) bs x else tempoAt d S bs x

/-- the times of the ticks, in samples played: the first at the start, and every tick a 24th of a beat before the next one, in the tempo at the
time of the tick -/
def tickAt (sr d : Rat) (bs : List (Pos × Nat)) : Nat → Rat
  | 0 => 0
  | k + 1 => tickAt sr d bs k + tickLength sr (tempoAt d 0 bs (tickAt sr d bs k))

/-- `l` are the clock messages of a block that is `n` samples long and starts `S` samples after the transport first
started (time during which it was stopped not counted): one for every tick that lies in the block, in their order, each delayed by its
distance from the start of the block. -/
def Clocks (sr : Rat) (P : Nat → Rat) (S n : Nat) (l : List Sent) : Prop :=
  ∃ ks : List Nat, ks.Pairwise (· < ·) ∧ (∀ k : Nat, k ∈ ks ↔ (S : Rat) ≤ P k ∧ P k < S + n) ∧
    l = ks.map fun (k : Nat) => message (1000 * ((P k - S) / sr)) 0xF8

/-- the messages for a change of the transport: reset (0xFF) and start (0xFA) when it starts at the beginning of the song,
continue (0xFB) when it starts anywhere else, stop (0xFC) when it stops, and reset when it is back at the beginning -/
def change (was : Bool) (p : Pos) : List Nat :=
  match was, p.playing, p.frame with
  | false, true, 0 => [0xFF, 0xFA]
  | false, true, _ + 1 => [0xFB]
  | true, true, 0 => [0xFF]
  | true, false, _ => [0xFC]
  | _, _, _ => []

/-- the messages `ls` of the blocks are right, when the transport was playing before them (`was`) and had played for `S`
samples, and the ticks are at the times `P` -/
def Correct (sr : Rat) (P : Nat → Rat) : Bool → Nat → List (Pos × Nat) → List (List Sent) → Prop
  | _, _, [], ls => ls = []
  | was, S, (p, n) :: bs, ls => ∃ l ls', ls = ((change was p).map (message 0) ++ l) :: ls' ∧
      (if counts p then Clocks sr P S n l else l = []) ∧ Correct sr P p.playing (if counts p then S + n else S) bs ls'

end Spec
open Spec

theorem rt_message (ms : Rat) (b : Nat) : rt ms (b : Rat) = message ms b := by
  unfold rt message
  rw [Midi.hash_in.2.2.2.2.2.2.2]

theorem rt_clock (ms : Rat) : rt ms CLOCK = message ms 0xF8 := by
  rw [← rt_message]; rfl

theorem transport_change (was : Bool) (p : Pos) : transport was p = (change was p).map (message 0) := by
  have e1 : rt 0 RESET = message 0 0xFF := by rw [← rt_message]; rfl
  have e2 : rt 0 START = message 0 0xFA := by rw [← rt_message]; rfl
  have e3 : rt 0 CONTINUE = message 0 0xFB := by rw [← rt_message]; rfl
  have e4 : rt 0 STOP = message 0 0xFC := by rw [← rt_message]; rfl
  obtain ⟨pl, fr, va, bp⟩ := p
  cases was <;> cases pl <;> cases fr <;> simp [transport, change, e1, e2, e3, e4]

theorem ticks_spec {sr T : Rat} {P : Nat → Rat} (hT : 0 < T) (hsr : 0 < sr) {start stop : Rat} (m : Nat) : ∀ (k : Nat),
    (∀ j, k ≤ j → P j < stop → P (j + 1) = P j + T) → stop ≤ P k + m * T → start ≤ P k →
    ∀ fuel, m ≤ fuel → ∃ c, ticks sr T start stop fuel (P k) =
        some ((List.range' k c).map fun (j : Nat) => message (1000 * ((P j - start) / sr)) 0xF8, P (k + c)) ∧
      stop ≤ P (k + c) ∧ ∀ j, j < k + c → k ≤ j → P j < stop := by
  induction m with
  | zero =>
    intro k hP h hs fuel _
    refine ⟨0, ?_, by simpa using h, by omega⟩
    have hn : ¬ P k < stop := not_lt.2 (by simpa using h)
    cases fuel <;> simp [ticks, hn]
  | succ m ih =>
    intro k hP h hs fuel hf
    obtain ⟨f, rfl⟩ : ∃ f, fuel = f + 1 := ⟨fuel - 1, by omega⟩
    by_cases hn : P k < stop
    · have e : P k + T = P (k + 1) := (hP k (le_refl _) hn).symm
      obtain ⟨c, hc, hst, hlt⟩ := ih (k + 1) (fun j hj => hP j (by omega)) (by rw [← e]; push_cast at h; linarith) (by rw [← e]; linarith) f (by omega)
      refine ⟨c + 1, ?_, by rw [show k + (c + 1) = k + 1 + c by omega]; exact hst, ?_⟩
      · have hms : 0 ≤ 1000 * (P k - start) / sr := div_nonneg (by linarith) hsr.le
        simp only [ticks, if_pos hn, e, hc]
        simp only [bind, Option.bind, if_pos hms, rt_clock, List.range'_succ, List.map_cons, List.cons_append, List.nil_append, mul_div_assoc]
        rw [mul_div_assoc] at hms
        rw [if_pos hms, show k + 1 + c = k + (c + 1) by omega]
        rfl
      · intro j h1 h2
        by_cases hj : j = k
        · rw [hj]; exact hn
        · exact hlt j (by omega) (by omega)
    · refine ⟨0, ?_, by simpa using not_lt.1 hn, by omega⟩
      simp [ticks, hn]

/-- the state after `S` samples of playing: the next tick is the first that is not before `S` -/
structure Inv (P : Nat → Rat) (S : Nat) (s : State) : Prop where
  start : s.start = S
  next : ∃ k : Nat, s.next = P k ∧ (S : Rat) ≤ P k ∧ ∀ j : Nat, j < k → P j < S

theorem clock_on (sr : Rat) (fuel : Nat) (s : State) (p : Pos) (hc : counts p = true) (n : Nat) : clock sr fuel s p n =
    if 0 ≤ s.next ∧ 0 ≤ s.start ∧ s.start < s.start + n then
      (ticks sr (60 * sr / p.bpm / 24) s.start (s.start + n) fuel s.next).map fun r => ({ s with next := r.2, start := s.start + n }, r.1)
    else some ({ s with start := s.start + n }, []) := by
  have hpv : (p.playing && p.valid) = true := hc
  unfold clock
  rw [if_pos hpv]
  simp only [bind]
  split
  · cases ticks sr (60 * sr / p.bpm / 24) s.start (s.start + n) fuel s.next <;> rfl
  · rfl

theorem clock_spec {sr : Rat} {P : Nat → Rat} (hm : StrictMono P) (hsr : 0 < sr) {s : State} {S : Nat} (hI : Inv P S s)
    (p : Pos) (hb : counts p → 0 < p.bpm) (n : Nat)
    (hP : counts p → ∀ j, (S : Rat) ≤ P j → P j < S + n → P (j + 1) = P j + tickLength sr p.bpm) :
    ∃ F, ∀ fuel, F ≤ fuel → ∃ s' l, clock sr fuel s p n = some (s', l) ∧ s'.wasPlaying = s.wasPlaying ∧
      (if counts p then Clocks sr P S n l else l = []) ∧ Inv P (if counts p then S + n else S) s' := by
  by_cases hc : counts p = true
  · have hT0 : 0 < tickLength sr p.bpm := by have := hb hc; unfold tickLength; positivity
    have hP := hP hc
    have hTe : 60 * sr / p.bpm / 24 = tickLength sr p.bpm := by unfold tickLength; ring
    generalize tickLength sr p.bpm = T at *
    obtain ⟨hs, k, hk, hSk, hlt⟩ := hI
    obtain ⟨m, hm'⟩ := Archimedean.arch ((S : Rat) + n) hT0
    rw [nsmul_eq_mul] at hm'
    refine ⟨m, fun fuel hf => ?_⟩
    have hpv : (p.playing && p.valid) = true := hc
    rw [clock_on _ _ _ _ hc, hTe, hs, hk]
    simp only [hc, if_true]
    by_cases hn : n = 0
    · subst hn
      rw [if_neg (by simp)]
      refine ⟨_, _, rfl, rfl, ⟨[], by simp, ?_, rfl⟩, ⟨by simp, k, rfl, by simpa using hSk, by simpa using hlt⟩⟩
      intro j
      simp only [List.not_mem_nil, false_iff]
      rintro ⟨h1, h2⟩
      simp at h2
      linarith
    · have hn0 : (0 : Rat) < n := by exact_mod_cast Nat.pos_of_ne_zero hn
      have hS0 : (0 : Rat) ≤ S := by exact_mod_cast Nat.zero_le S
      rw [if_pos ⟨by linarith, hS0, by linarith⟩]
      obtain ⟨c, hcx, hst, hlt2⟩ := ticks_spec hT0 hsr (P := P) (start := S) (stop := S + n) m k
        (fun j hj hjn => hP j (hSk.trans (hm.monotone hj)) hjn) (by linarith) hSk fuel hf
      simp only [hcx, Option.map_some]
      refine ⟨_, _, rfl, rfl, ⟨List.range' k c, List.pairwise_lt_range', ?_, rfl⟩, ⟨by simp, k + c, rfl, by push_cast; push_cast at hst; linarith, ?_⟩⟩
      · intro j
        rw [List.mem_range'_1]
        constructor
        · rintro ⟨h1, h2⟩
          exact ⟨hSk.trans (hm.monotone h1), hlt2 j h2 h1⟩
        · rintro ⟨h1, h2⟩
          constructor
          · by_contra hlt'
            have := hlt j (by omega)
            linarith
          · by_contra hge
            have : P (k + c) ≤ P j := hm.monotone (by omega)
            linarith
      · intro j hj
        push_cast
        by_cases hjk : j < k
        · have := hlt j hjk
          linarith
        · exact hlt2 j hj (by omega)
  · refine ⟨0, fun fuel _ => ⟨s, [], ?_, rfl, by simp [hc], by simpa [hc] using hI⟩⟩
    have hpv : ¬ (p.playing && p.valid) = true := hc
    unfold clock
    rw [if_neg hpv]

theorem blocks_spec {sr d : Rat} {P : Nat → Rat} (hm : StrictMono P) (hsr : 0 < sr) (bs : List (Pos × Nat))
    (hbs : ∀ b ∈ bs, counts b.1 → 0 < b.1.bpm) : ∀ (s : State) (S : Nat), Inv P S s →
    (∀ j, (S : Rat) ≤ P j → P (j + 1) = P j + tickLength sr (tempoAt d S bs (P j))) →
    ∃ F, ∀ fuel, F ≤ fuel → ∃ ls, blocks sr fuel s bs = some ls ∧ Correct sr P s.wasPlaying S bs ls := by
  induction bs with
  | nil => exact fun s S _ _ => ⟨0, fun fuel _ => ⟨[], rfl, rfl⟩⟩
  | cons b bs ih =>
    intro s S hI hP
    obtain ⟨p, n⟩ := b
    obtain ⟨F1, h1⟩ := clock_spec (s := { s with wasPlaying := p.playing }) hm hsr ⟨hI.1, hI.2⟩ p (hbs (p, n) (by simp)) n
      (fun hc j h1 h2 => by rw [hP j h1, tempoAt, if_pos hc, if_pos h2])
    have hP' : ∀ j, (((if counts p then S + n else S : Nat)) : Rat) ≤ P j →
        P (j + 1) = P j + tickLength sr (tempoAt d (if counts p then S + n else S) bs (P j)) := by
      intro j hj
      by_cases hc : counts p = true
      · simp only [if_pos hc] at hj ⊢
        push_cast at hj
        rw [hP j (by linarith [show (0 : Rat) ≤ n by exact_mod_cast Nat.zero_le n]), tempoAt, if_pos hc, if_neg (not_lt.2 hj)]
      · simp only [if_neg hc] at hj ⊢
        rw [hP j hj, tempoAt, if_neg hc]
    obtain ⟨s1, l, hc, hw, hl, hI'⟩ := h1 F1 (le_refl _)
    -- the state after the block does not depend on the bound
    have hsame : ∀ fuel, F1 ≤ fuel → ∃ s' l', clock sr fuel { s with wasPlaying := p.playing } p n = some (s', l') ∧ s'.wasPlaying = p.playing ∧
        (if counts p then Clocks sr P S n l' else l' = []) ∧ Inv P (if counts p then S + n else S) s' := by
      intro fuel hf
      obtain ⟨s', l', a, b', c, d⟩ := h1 fuel hf
      exact ⟨s', l', a, b', c, d⟩
    have hfuel : ∀ S' : Nat, (∀ j, (S' : Rat) ≤ P j → P (j + 1) = P j + tickLength sr (tempoAt d S' bs (P j))) → ∃ F2, ∀ (s' : State), Inv P S' s' → ∀ fuel, F2 ≤ fuel → ∃ ls, blocks sr fuel s' bs = some ls ∧ Correct sr P s'.wasPlaying S' bs ls := by
      intro S' hP'
      by_cases hex : ∃ s0, Inv P S' s0
      · obtain ⟨s0, hI0⟩ := hex
        have huniq : ∀ s' : State, Inv P S' s' → s'.next = s0.next ∧ s'.start = s0.start := by
          intro s' hI'
          obtain ⟨a1, k1, b1, c1, d1⟩ := hI'
          obtain ⟨a2, k2, b2, c2, d2⟩ := hI0
          have : k1 = k2 := by
            rcases Nat.lt_trichotomy k1 k2 with h | h | h
            · have := d2 k1 h; linarith
            · exact h
            · have := d1 k2 h; linarith
          exact ⟨by rw [b1, b2, this], by rw [a1, a2]⟩
        obtain ⟨Ft, ht⟩ := ih (fun b hb => hbs b (by simp [hb])) { s0 with wasPlaying := true } S' ⟨hI0.1, hI0.2⟩ hP'
        obtain ⟨Ff, hf⟩ := ih (fun b hb => hbs b (by simp [hb])) { s0 with wasPlaying := false } S' ⟨hI0.1, hI0.2⟩ hP'
        refine ⟨max Ft Ff, fun s' hI' fuel hfu => ?_⟩
        obtain ⟨u1, u2⟩ := huniq s' hI'
        obtain ⟨w, nx, st⟩ := s'
        simp only at u1 u2
        subst u1 u2
        cases w
        · exact hf fuel (le_trans (le_max_right _ _) hfu)
        · exact ht fuel (le_trans (le_max_left _ _) hfu)
      · exact ⟨0, fun s' hI' => absurd ⟨s', hI'⟩ hex⟩
    obtain ⟨F2, h2⟩ := hfuel (if counts p then S + n else S) hP'
    refine ⟨max F1 F2, fun fuel hf => ?_⟩
    obtain ⟨s', l', hc', hw', hl', hI''⟩ := hsame fuel (le_trans (le_max_left _ _) hf)
    obtain ⟨ls, hls, hcor⟩ := h2 s' hI'' fuel (le_trans (le_max_right _ _) hf)
    refine ⟨(transport s.wasPlaying p ++ l') :: ls, ?_, ?_⟩
    · simp only [blocks, block, hc', bind, Option.bind, hls]
    · refine ⟨l', ls, ?_, hl', ?_⟩
      · rw [transport_change]
      · rw [← hw']; exact hcor

theorem tempoAt_pos {d : Rat} (hd : 0 < d) (bs : List (Pos × Nat)) (hbs : ∀ b ∈ bs, counts b.1 → 0 < b.1.bpm) : ∀ (S : Nat) (x : Rat), 0 < tempoAt d S bs x := by
  induction bs with
  | nil => exact fun _ _ => hd
  | cons b bs ih =>
    intro S x
    obtain ⟨p, n⟩ := b
    have ih := ih fun b hb => hbs b (by simp [hb])
    rw [tempoAt]
    split
    · rename_i hc
      split
      · exact hbs (p, n) (by simp) hc
      · exact ih _ _
    · exact ih _ _

theorem tickAt_mono {sr d : Rat} (hsr : 0 < sr) (hd : 0 < d) (bs : List (Pos × Nat)) (hbs : ∀ b ∈ bs, counts b.1 → 0 < b.1.bpm) :
    StrictMono (tickAt sr d bs) := by
  refine strictMono_nat_of_lt_succ fun k => ?_
  have := tempoAt_pos hd bs hbs 0 (tickAt sr d bs k)
  have : 0 < tickLength sr (tempoAt d 0 bs (tickAt sr d bs k)) := by unfold tickLength; positivity
  rw [tickAt]
  linarith

/-- **C54** for every sample rate and every sequence of blocks of any lengths and with any positive tempos, in which the transport starts,
stops and moves at will: the loop of every block ends, the changes of the transport are announced, and the clock messages of the blocks are
exactly the ticks (a 24th of a beat apart, in the tempo at each tick, counted in samples played), each in the block where it falls and with
the delay from the start of that block; none is lost or sent twice. (`d` is the tempo after the last block.) -/
theorem clock_ticks {sr d : Rat} (hsr : 0 < sr) (hd : 0 < d) (bs : List (Pos × Nat)) (hbs : ∀ b ∈ bs, counts b.1 → 0 < b.1.bpm) :
    ∃ F, ∀ fuel, F ≤ fuel → ∃ ls, blocks sr fuel init bs = some ls ∧ Correct sr (tickAt sr d bs) false 0 bs ls :=
  blocks_spec (d := d) (tickAt_mono hsr hd bs hbs) hsr bs hbs init 0 ⟨by simp [init], 0, by simp [init, tickAt], by simp [tickAt], by simp⟩
    (fun _ _ => rfl)

theorem tempoAt_const {d : Rat} (bs : List (Pos × Nat)) (hbs : ∀ b ∈ bs, counts b.1 → b.1.bpm = d) : ∀ (S : Nat) (x : Rat), tempoAt d S bs x = d := by
  induction bs with
  | nil => exact fun _ _ => rfl
  | cons b bs ih =>
    intro S x
    obtain ⟨p, n⟩ := b
    have ih := ih fun b hb => hbs b (by simp [hb])
    rw [tempoAt]
    split
    · rename_i hc
      split
      · exact hbs (p, n) (by simp) hc
      · exact ih _ _
    · exact ih _ _

/-- **C54** as long as the tempo stays the same the ticks are the multiples of a 24th of a beat -/
theorem tickAt_const {sr d : Rat} (bs : List (Pos × Nat)) (hbs : ∀ b ∈ bs, counts b.1 → b.1.bpm = d) (k : Nat) :
    tickAt sr d bs k = k * tickLength sr d := by
  induction k with
  | zero => simp [tickAt]
  | succ k ih =>
    rw [tickAt, tempoAt_const bs hbs, ih]
    push_cast
    ring

/-- how long the transport has played after the blocks -/
def played (bs : List (Pos × Nat)) : Nat := (bs.map fun b => if counts b.1 then b.2 else 0).sum

theorem tempoAt_skip {d : Rat} (bs : List (Pos × Nat)) (p : Pos) (n : Nat) (bpm x : Rat) : ∀ (as : List (Pos × Nat)) (S : Nat),
    (S : Rat) ≤ x → ¬ (((S + played as : Nat) : Rat) ≤ x ∧ x < (S + played as : Nat) + n) →
    tempoAt d S (as ++ ({ p with bpm := bpm }, n) :: bs) x = tempoAt d S (as ++ (p, n) :: bs) x := by
  intro as
  induction as with
  | nil =>
    intro S hS hx
    have hc : counts { p with bpm := bpm } = counts p := rfl
    simp only [List.nil_append, tempoAt, hc]
    split
    · split
      · rename_i hlt
        exact absurd ⟨hS, hlt⟩ hx
      · rfl
    · rfl
  | cons a as ih =>
    intro S hS hx
    obtain ⟨q, m⟩ := a
    simp only [List.cons_append, tempoAt]
    split
    · rename_i hc
      split
      · rfl
      · rename_i hlt
        refine ih (S + m) (by push_cast; exact not_lt.1 hlt) ?_
        have e : S + played ((q, m) :: as) = S + m + played as := by simp [played, hc]; omega
        rwa [e] at hx
    · rename_i hc
      refine ih S hS ?_
      have e : S + played ((q, m) :: as) = S + played as := by simp [played, hc]
      rwa [e] at hx

/-- **F119** a tempo that the host sets in a block in which no tick falls is not heard at all: the ticks are the same with any other tempo
there -/
theorem tempo_between_ticks {sr d : Rat} (hsr : 0 < sr) (hd : 0 < d) (as bs : List (Pos × Nat)) (p : Pos) (n : Nat) (bpm : Rat)
    (hbs : ∀ b ∈ as ++ (p, n) :: bs, counts b.1 → 0 < b.1.bpm)
    (h : ∀ k, ¬ ((played as : Rat) ≤ tickAt sr d (as ++ (p, n) :: bs) k ∧ tickAt sr d (as ++ (p, n) :: bs) k < played as + n)) (k : Nat) :
    tickAt sr d (as ++ ({ p with bpm := bpm }, n) :: bs) k = tickAt sr d (as ++ (p, n) :: bs) k := by
  induction k with
  | zero => rfl
  | succ k ih =>
    have h0 : 0 ≤ tickAt sr d (as ++ (p, n) :: bs) k := (tickAt_mono hsr hd _ hbs).monotone (Nat.zero_le k)
    rw [tickAt, tickAt, ih, tempoAt_skip _ _ _ _ _ as 0 (by simpa using h0) (by simpa using h k)]

/-- that happens: at 48 kHz, 120 beats per minute, a block of 400 samples at 300 beats per minute from sample 400 on lies between the ticks at 0
and 1000 -/
example : let P := tickAt 48000 120 ([(⟨true, 0, true, 120⟩, 400)] ++ (⟨true, 400, true, 300⟩, 400) :: [(⟨true, 800, true, 120⟩, 400)])
    P 0 = 0 ∧ P 1 = 1000 ∧ P 2 = 2000 := by
  refine ⟨?_, ?_, ?_⟩ <;> decide +kernel

/-- the ticks do not follow the position of the host: wherever the transport is started for the first time, the first
block has a tick at once (F53: after a start in the middle of a beat, or a jump, the clock is not aligned with the
host's beats). -/
theorem first_tick_at_once {sr bpm : Rat} (hsr : 0 < sr) (hb : 0 < bpm) (p : Pos) (hc : counts p) (hp : p.bpm = bpm) (n : Nat) (hn : 0 < n) :
    ∃ F, ∀ fuel, F ≤ fuel → ∃ l, blocks sr fuel init [(p, n)] = some [l] ∧ message 0 0xF8 ∈ l := by
  obtain ⟨F, h⟩ := clock_ticks hsr hb [(p, n)] (by simp; exact fun _ => hp ▸ hb)
  refine ⟨F, fun fuel hf => ?_⟩
  obtain ⟨ls, h1, l, ls', h2, h3, h4⟩ := h fuel hf
  rw [if_pos hc] at h3
  obtain ⟨ks, -, hk, rfl⟩ := h3
  have h4 : ls' = [] := h4
  refine ⟨_, by rw [h1, h2, h4], List.mem_append_right _ ?_⟩
  rw [List.mem_map]
  refine ⟨0, (hk 0).2 ⟨by simp [tickAt], ?_⟩, by simp [tickAt]⟩
  simp only [Nat.cast_zero, zero_add, tickAt]
  exact_mod_cast hn

/-- **F53** with a negative tempo, as a host may report for a transport that runs backwards, the loop never ends. -/
theorem negative_tempo_hangs {sr : Rat} (hsr : 0 < sr) (p : Pos) (hc : counts p) (hp : p.bpm < 0) (n : Nat) (hn : 0 < n) (fuel : Nat) :
    blocks sr fuel init [(p, n)] = none := by
  have key : ∀ {T : Rat}, T < 0 → ∀ f (x : Rat), x ≤ 0 → ticks sr T 0 (0 + n) f x = none := by
    intro T hT f
    have hn0 : (0 : Rat) < n := by exact_mod_cast hn
    induction f with
    | zero => intro x hx; simp only [ticks]; rw [if_pos (by linarith)]
    | succ f ih => intro x hx; simp only [ticks]; rw [if_pos (by linarith), ih _ (by linarith)]; rfl
  have hpv : (p.playing && p.valid) = true := hc
  have hT : 60 * sr / p.bpm / 24 < 0 := by
    apply div_neg_of_neg_of_pos _ (by norm_num)
    exact div_neg_of_pos_of_neg (by linarith) hp
  have hn0 : (0 : Rat) < n := by exact_mod_cast hn
  have : clock sr fuel { init with wasPlaying := p.playing } p n = none := by
    rw [clock_on _ _ _ _ hc, if_pos ⟨le_refl _, le_refl _, by show (0 : Rat) < 0 + n; linarith⟩]
    show (ticks sr (60 * sr / p.bpm / 24) 0 (0 + n) fuel 0).map _ = none
    rw [key hT fuel 0 (le_refl _)]
    rfl
  simp only [blocks, block, this]
  rfl

/-- non-vacuity: 120 beats per minute at 48 kHz have a tick every 1000 samples; two blocks of 1500 samples have their ticks
at 0, 1000 and at 500 -/
example : tickLength 48000 120 = 1000 ∧
    blocks 48000 5 init [(⟨true, 0, true, 120⟩, 1500), (⟨true, 1500, true, 120⟩, 1500)] =
      some [[message 0 0xFF, message 0 0xFA, message 0 0xF8, message (1000 * (1000 / 48000)) 0xF8], [message (1000 * (500 / 48000)) 0xF8]] := by
  constructor
  · unfold tickLength; norm_num
  · decide +kernel

end Verif.Transport
