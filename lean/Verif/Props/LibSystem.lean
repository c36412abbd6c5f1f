import Verif.Lib.Samplerate
import Verif.Lib.Loadbang
import Verif.Lib.BangS
import Verif.Lib.Midirealtimein
import Verif.Lib.Midiin
import Verif.Props.Scheduler
/-!
# C91: the objects that tell about the system

`[samplerate~]`, `[loadbang]`, `[bang~]`, `[midirealtimein]`, `[midiin]`: the generated code of the library patches, for every history.
-/
set_option linter.unusedSimpArgs false
namespace Verif.Lib
open Verif.Control (Dest Kind Cast Patch Act Sys Env Big)

/-! ### specification -/

/-- tells `x` to everyone who asks -/
def tells (x : ℚ) : Reacts Unit where
  init := ()
  on _ _ _ _ := ((), [(0, [.float x])])

/-- two numbers of the host, the second one first and counted from `d` -/
def pair (d : ℚ) : Reacts Unit where
  init := ()
  on _ _ _ m :=
    match m with
    | [.float a, .float p] => ((), [(1, [.float (p + d)]), (0, [.float a])])
    | _ => ((), [])

/-- any message at inlet 0 that is not empty -/
def Asks : Ev → Prop
  | .ext _ 0 m => m ≠ []
  | .ext _ _ _ => False
  | .tick => True

/-- a message of the host: a byte and the number of the port -/
def Pairs : Ev → Prop
  | .ext _ 0 m => ∃ a p, m = [.float a, .float p]
  | .ext _ _ _ => False
  | .tick => True

/-- something at the inlet of `[bang~]` (0), or what `process` sends to `__hv_bang~` (1) -/
def AtBang : Ev → Prop
  | .ext _ 0 m => m ≠ []
  | .ext _ 1 m => m = [.bang]
  | .ext _ _ _ => False
  | .tick => True

/-- a bang out of outlet 0 for each bang of `process`, at its time -/
def pulses : List Ev → List (Nat × Nat × Msg)
  | [] => []
  | .ext t 1 _ :: es => (t, 0, [.bang]) :: pulses es
  | _ :: es => pulses es

variable {c : Ctx}

namespace Samplerate

/-- **C91** `[samplerate~]` tells the sample rate, whatever is asked -/
theorem does (M : Mach) (hM : Code c M) (tab : Nat → List ℚ) :
    Does M drv (start c nodes tab) Asks (tells c.sr) := by
  refine does_of_simulates (to_code hM (fun e h => by
      match e, h with
      | .ext _ 0 _, _ => exact Nat.zero_lt_succ _
      | .tick, _ => trivial)
    (simulates_of_reacts (R := fun _ _ => True) ?_ ?_)) fun x s h => ⟨h.1.q, h.1.log⟩
  · have hb : Ends (sys c) [] (start c nodes tab) _ := ends_nil.mpr rfl
    exact ⟨_, hb, trivial, rfl, rfl⟩
  · intro v s t i m hr hq hf
    match i, hf with
    | 0, hm =>
      match m, hm with
      | a :: m, _ =>
        refine ⟨?s1, (?h1 : Ends (sys c) [((0, 0), _)] _ _), ?_⟩
        case h1 => simp [lib_step, lib_samplerate]; rfl
        refine ⟨?_, ?_, ?_⟩ <;> simp [lib_step, tells, hq]

end Samplerate
namespace Midirealtimein

/-- **C91** `[midirealtimein]`: the port, then the byte -/
theorem does (M : Mach) (hM : Code c M) (tab : Nat → List ℚ) :
    Does M drv (start c nodes tab) Pairs (pair 0) := by
  refine does_of_simulates (to_code hM (fun e h => by
      match e, h with
      | .ext _ 0 _, _ => exact Nat.zero_lt_succ _
      | .tick, _ => trivial)
    (simulates_of_reacts (R := fun _ _ => True) ?_ ?_)) fun x s h => ⟨h.1.q, h.1.log⟩
  · have hb : Ends (sys c) [] (start c nodes tab) _ := ends_nil.mpr rfl
    exact ⟨_, hb, trivial, rfl, rfl⟩
  · intro v s t i m hr hq hf
    match i, hf with
    | 0, ⟨a, p, hm⟩ =>
      subst hm
      refine ⟨?s1, (?h1 : Ends (sys c) [((13, 0), _)] _ _), ?_⟩
      case h1 => simp [lib_step, lib_midirealtimein]; rfl
      refine ⟨?_, ?_, ?_⟩ <;> simp [lib_step, pair, hq]

end Midirealtimein

namespace Midiin

/-- **C91** `[midiin]`: the port, counted from 1, then the byte -/
theorem does (M : Mach) (hM : Code c M) (tab : Nat → List ℚ) :
    Does M drv (start c nodes tab) Pairs (pair 1) := by
  refine does_of_simulates (to_code hM (fun e h => by
      match e, h with
      | .ext _ 0 _, _ => exact Nat.zero_lt_succ _
      | .tick, _ => trivial)
    (simulates_of_reacts (R := fun _ _ => True) ?_ ?_)) fun x s h => ⟨h.1.q, h.1.log⟩
  · have hb : Ends (sys c) [] (start c nodes tab) _ := ends_nil.mpr rfl
    exact ⟨_, hb, trivial, rfl, rfl⟩
  · intro v s t i m hr hq hf
    match i, hf with
    | 0, ⟨a, p, hm⟩ =>
      subst hm
      refine ⟨?s1, (?h1 : Ends (sys c) [((14, 0), _)] _ _), ?_⟩
      case h1 => simp [lib_step, lib_midirealtimein, Op.eval]; rfl
      refine ⟨?_, ?_, ?_⟩ <;> simp [lib_step, pair, hq]

end Midiin

/-! ### objects that speak at the beginning -/

namespace Bang

/-- one more event -/
def step (l : List (Nat × Nat × Msg)) (e : Ev) : List (Nat × Nat × Msg) := l ++ pulses [e]

theorem steps (es : List Ev) (l : List (Nat × Nat × Msg)) : es.foldl step l = l ++ pulses es := by
  induction es generalizing l with
  | nil => simp [pulses]
  | cons e es ih =>
    rw [List.foldl_cons, ih]
    match e with
    | .tick => simp [step, pulses]
    | .ext t 0 m => simp [step, pulses]
    | .ext t 1 m => simp [step, pulses]
    | .ext t (k + 2) m => simp [step, pulses]

theorem simulates (M : Mach) (hM : Code c M) (tab : Nat → List ℚ) :
    ∃ S : List (Nat × Nat × Msg) → St → Prop, (∀ x s, S x s → s.q = [] ∧ s.log = x) ∧
      Simulates M drv (start c nodes tab) AtBang step [(0, 0, [.bang])] S := by
  refine ⟨_, ?_, to_code hM (Sim := fun x s => s.q = [] ∧ s.log = x) (fun e h => by
      match e, h with
      | .ext _ 0 _, _ => exact Nat.zero_lt_succ _
      | .ext _ 1 _, _ => exact Nat.lt_succ_self _
      | .tick, _ => trivial) ⟨?_, ?_⟩⟩
  · intro x s h
    exact h.1
  · have hb : ∃ s, Ends (sys c) [((6, 0), [.bang])] (start c nodes tab) s ∧ s.q = [] ∧ s.log = [(0, 0, [.bang])] := by
      have hq : (start c nodes tab).q = [] := rfl
      have hl : (start c nodes tab).log = [] := rfl
      have hn : (start c nodes tab).now = 0 := rfl
      refine ⟨?s0, ?h0, ?_⟩
      case h0 => simp [lib_step, lib_bang]; rfl
      refine ⟨?_, ?_⟩ <;> simp [hq, hl, hn]
    obtain ⟨s, h1, h2, h3⟩ := hb
    exact ⟨s, h1, h2, h3⟩
  · intro x s e hs hf hc
    match e, hf with
    | .tick, _ => exact absurd hs.1 hc
    | .ext t 0 m, hm =>
      have hb : ∃ s', Ends (sys c) [((0, 0), m)] { s with now := t } s' ∧ s'.q = [] ∧ s'.log = x := by
        refine ⟨?s1, ?h1, ?_⟩
        case h1 => simp [lib_step, lib_bang]; rfl
        exact hs
      obtain ⟨s', h1, h2, h3⟩ := hb
      exact ⟨s', happens_ext.mpr ⟨hc.1, hc.2, h1⟩, h2, by simp [h3, step, pulses]⟩
    | .ext t 1 m, hm =>
      cases hm
      have hb : ∃ s', Ends (sys c) [((10, 0), [.bang])] { s with now := t } s' ∧ s'.q = [] ∧ s'.log = x ++ [(t, 0, [.bang])] := by
        refine ⟨?s2, ?h2, ?_⟩
        case h2 => simp [lib_step, lib_bang]; rfl
        refine ⟨?_, ?_⟩ <;> simp [hs.1, hs.2]
      obtain ⟨s', h1, h2, h3⟩ := hb
      exact ⟨s', happens_ext.mpr ⟨hc.1, hc.2, h1⟩, h2, by simp [h3, step, pulses]⟩

/-- **C91** `[bang~]`: a bang when the program starts, then one for each bang that `process` sends, and nothing for what comes to its
inlet; it never gets stuck -/
theorem does (M : Mach) (hM : Code c M) (tab : Nat → List ℚ) :
    (∀ es, (∀ e ∈ es, AtBang e) → ∀ s, Runs M drv (start c nodes tab) es s → s.log = (0, 0, [.bang]) :: pulses es ∧ s.q = []) ∧
    (∃ s, Runs M drv (start c nodes tab) [] s) ∧
    ∀ es, (∀ e ∈ es, AtBang e) → ∀ s, Runs M drv (start c nodes tab) es s → ∀ t i m, AtBang (.ext t i m) → s.now ≤ t →
      ∃ s', Happens M drv (.ext t i m) s s' := by
  obtain ⟨S, hS, h⟩ := simulates M hM tab
  refine ⟨fun es hf s hr => ?_, h.goes_on.1, fun es hf s hr t i m he ht => ?_⟩
  · have := hS _ _ (h.runs hf hr)
    rw [steps] at this
    exact ⟨this.2, this.1⟩
  · exact h.goes_on.2 es hf s hr _ he ⟨ht, by rw [(hS _ _ (h.runs hf hr)).1]; simp⟩

/-- **C91** what `process` does about `__hv_bang~` (the scheduler of C01, C08): two calls one after the other; in the second one every
receiver gets a message with the time of the *beginning of the first*; it is delivered in the second call (if no handler cancels it) -/
theorem next_call {σ : Type} {H : Sched.Handler σ} (hH : Sched.WellBehaved H) (recv : Nat → List Nat) {fuel j : Nat} (hj : j ≤ 31)
    {n n' : BitVec 32} (hn : n.toNat < 2^31) (hn' : n'.toNat < 2^31) (hb : 2^j ≤ n'.toNat) {during during' : List (Nat × Nat)}
    {s s1 s2 : Sched.Sys σ} {xs : List MQ.Item} (hs : Sched.SI s xs) (hov : s.clock + n.toNat + n'.toNat < 2^32) {r r' : Int}
    (hp : Sched.process H recv fuel (2^j) n during s = .ok (r, s1))
    (hp' : Sched.process H recv fuel (2^j) n' during' s1 = .ok (r', s2)) (k : Nat) (hk : k ∈ recv Sched.bangHash) :
    ∃ x ∈ s2.added, x ∉ s1.added ∧ x.ts = s.clock ∧ x.send = k ∧ (x ∈ s2.log.map (·.item) ∨ x ∈ s2.cancelled) := by
  obtain ⟨xs1, new1, host1, dr1, a1, a2, a3, a4, a5, a6, a7, a8, -⟩ := Sched.process_ok hH recv hj n hn during hs (by omega) hp
  have hc : s1.clock + n'.toNat < 2^32 := by omega
  obtain ⟨xs2, new2, host2, dr2, b1, b2, b3, ⟨rest, b4⟩, b5, b6, b7, b8, b9, -⟩ :=
    Sched.process_ok hH recv hj n' hn' during' a1 hc hp'
  have hm : (s.clock, 0, k) ∈ host2.map (fun x => (x.ts, x.inlet, x.send)) := by
    rw [b5, a8]
    simp only [List.flatMap_cons, List.mem_append, List.mem_map]
    exact .inl ⟨k, hk, rfl⟩
  obtain ⟨x, hx, he⟩ := List.mem_map.mp hm
  simp only [Prod.mk.injEq] at he
  have hin : x ∈ s2.added := by rw [b4]; simp [hx]
  refine ⟨x, hin, fun h1 => ?_, he.1, he.2.2, ?_⟩
  · have hd : (s2.added.map (·.id)).Nodup := by rw [b1.ids]; exact List.nodup_range
    rw [b4, List.append_assoc, List.map_append, List.nodup_append] at hd
    exact hd.2.2 _ (List.mem_map_of_mem h1) _ (List.mem_map_of_mem (List.mem_append_left _ hx)) rfl
  · have hl := b9 hb
    have := b1.perm.subset hin
    rw [List.mem_append, List.mem_append] at this
    rcases this with (h1 | h1) | h1
    · exact .inl h1
    · exact .inr h1
    · have h2 := hl x h1
      have h3 := Nat.mod_lt n'.toNat (Nat.two_pow_pos j)
      omega

/-- the times at which the bangs of `process` are, for calls of `ns` frames each, the first one after `t` frames: the beginnings of all
the calls but the last one, whose bang is for the call to come -/
def begins (t : Nat) : List Nat → List Nat
  | [] => []
  | [_] => []
  | n :: n' :: ns => t :: begins (t + n) (n' :: ns)

/-- **C91** the bangs of a program that is run in calls of `ns` frames: one at the beginning, and in each call but the first one at the
time of the beginning of the call before -/
theorem every_call (M : Mach) (hM : Code c M) (tab : Nat → List ℚ) (ns : List Nat) (s : St)
    (hr : Runs M drv (start c nodes tab) ((begins 0 ns).map fun t => .ext t 1 [.bang]) s) :
    s.log = (0 :: begins 0 ns).map fun t => (t, 0, [.bang]) := by
  have := ((does M hM tab).1 _ (by simp [AtBang]) s hr).1
  rw [this, List.map_cons]
  congr 1
  generalize begins 0 ns = l
  induction l with
  | nil => rfl
  | cons a l ih => simp only [List.map_cons, pulses, ih]

end Bang

namespace Loadbang

/-- **C91** `[loadbang]`: one bang, when the program starts -/
theorem does (M : Mach) (hM : Code c M) (tab : Nat → List ℚ) :
    (∃ s, Runs M drv (start c nodes tab) [] s) ∧ ∀ s, Runs M drv (start c nodes tab) [] s → s.log = [(0, 0, [.bang])] ∧ s.q = [] := by
  have h : Simulates (mach c) drv (start c nodes tab) (fun _ => False) (fun (x : Unit) (_ : Ev) => x) ()
      (fun _ s => s.log = [(0, 0, [.bang])] ∧ s.q = []) := by
    refine ⟨?_, fun _ h _ => h.elim⟩
    have hb : ∃ s, Ends (sys c) [((2, 0), [.bang])] (start c nodes tab) s ∧ s.log = [(0, 0, [.bang])] ∧ s.q = [] := by
      have hq : (start c nodes tab).q = [] := rfl
      have hl : (start c nodes tab).log = [] := rfl
      have hn : (start c nodes tab).now = 0 := rfl
      refine ⟨?s0, ?h0, ?_⟩
      case h0 => simp [lib_step, lib_bang]; rfl
      refine ⟨?_, ?_⟩ <;> simp [hq, hl, hn]
    obtain ⟨s, h1, h2⟩ := hb
    exact ⟨s, h1, h2⟩
  have h' := h.code checked classes hM (fun _ h => h.elim)
  exact ⟨h'.goes_on.1, fun s hr => (h'.runs (es := []) (by simp) hr).1⟩

end Loadbang

/-! ### cases -/

namespace Example

/-- a program with a `[samplerate~]`, asked by a list at time 5 -/
theorem asked (c : Ctx) (tab : Nat → List ℚ) : ∃ M, Samplerate.Code c M ∧ ∃ s,
    Runs M Samplerate.drv (start c Samplerate.nodes tab) [] s ∧
    (∀ s, Runs M Samplerate.drv (start c Samplerate.nodes tab) [.ext 5 0 [.float 3, .sym "x"]] s → s.log = [(5, 0, [.float c.sr])]) := by
  obtain ⟨M, hM⟩ := Samplerate.code_exists c
  have h := Samplerate.does M hM tab
  obtain ⟨s, hs⟩ := h.starts
  exact ⟨M, hM, s, hs, fun s hr => (h.same _ (by simp [Asks]) s hr).1⟩

/-- three calls of 64, 128 and 64 frames -/
theorem three_calls : Bang.begins 0 [64, 128, 64] = [0, 64] := rfl

/-- the clock of a host (`0xF8`) on the second port -/
theorem clock (t : Nat) : (pair 1).after [.ext t 0 [.float 248, .float 1]] = ((), [(t, 1, [.float 2]), (t, 0, [.float 248])]) := by
  have : (1 : ℚ) + 1 = 2 := one_add_one_eq_two
  simp only [Reacts.after, List.foldl_cons, List.foldl_nil, Reacts.step, pair, this]
  rfl

end Example
end Verif.Lib
