import Verif.Lib.Biquad
import Verif.Sig.Biquad
import Verif.Props.SigVcf
/-! **C75** `[biquad~]`: the list of coefficients at its inlet (hvcc/interpreters/pd2hv/libs/pd/biquad~.pd). -/
set_option linter.unusedVariables false
set_option linter.style.longLine false
set_option maxRecDepth 100000
namespace Verif.Lib
open Verif.Control (Dest Kind Cast Patch Act Sys Env Big)

/-- lists of numbers at inlet 0 -/
def Lists : Ev → Prop
  | .ext _ i m => i = 0 ∧ ∃ l : List ℚ, m = l.map Atom.float
  | .tick => False

/-- the number at place `j` of the list -/
def placeOf (j : Nat) : Ev → Option ℚ
  | .ext _ 0 m => match m[j]? with | some (.float q) => some q | _ => none
  | _ => none

/-- the number that came last at place `j` of a list, or `a` -/
def lastPlace (j : Nat) (a : ℚ) (es : List Ev) : ℚ := (es.filterMap (placeOf j)).getLast?.getD a

def listStep (p : Nat → ℚ) (e : Ev) : Nat → ℚ := fun j => (placeOf j e).getD (p j)

theorem list_fold (p : Nat → ℚ) (es : List Ev) (j : Nat) : es.foldl listStep p j = lastPlace j (p j) es := by
  unfold lastPlace
  induction es generalizing p with
  | nil => rfl
  | cons e l ih =>
    rw [List.foldl_cons, ih, List.filterMap_cons]
    unfold listStep
    cases placeOf j e with
    | none => rfl
    | some q => cases h : (l.filterMap (placeOf j)) with
      | nil => rfl
      | cons a t => simp [List.getLast?_cons]

namespace Biquad
variable {a1 a2 a3 a4 a5 : ℚ} {c : Ctx} {s : St}

/-- what was sent to the filter -/
structure Mem (a3 a4 a5 : ℚ) (p : Nat → ℚ) (s : St) : Prop where
  queue : s.q = []
  s0 : lastSent s.log 0 = some (-p 0)
  s1 : lastSent s.log 1 = some (-p 1)
  s2 : (lastSent s.log 2).getD a3 = p 2
  s3 : (lastSent s.log 3).getD a4 = p 3
  s4 : (lastSent s.log 4).getD a5 = p 4

/-- the arguments -/
def args (a1 a2 a3 a4 a5 : ℚ) (j : Nat) : ℚ := [a1, a2, a3, a4, a5].getD j 0

theorem boot (tab : Nat → List ℚ) :
    ∃ s, Ends (sys a1 a2 a3 a4 a5 c) [((12, 0), [.bang])] (start c (nodes a1 a2 a3 a4 a5) tab) s ∧ Mem a3 a4 a5 (args a1 a2 a3 a4 a5) s := by
  have h1 : (start c (nodes a1 a2 a3 a4 a5) tab).mem 13 = [.float a1] := rfl
  have h2 : (start c (nodes a1 a2 a3 a4 a5) tab).mem 14 = [.float a2] := rfl
  have h3 : (start c (nodes a1 a2 a3 a4 a5) tab).q = [] := rfl
  have h4 : (start c (nodes a1 a2 a3 a4 a5) tab).log = [] := rfl
  refine ⟨?s1, ?h1, ?_⟩
  case h1 =>
    simp [lib_step, lib_biquad, h1, h2, Op.eval]
    rfl
  refine ⟨?_, ?_, ?_, ?_, ?_, ?_⟩
  all_goals simp [lib_step, h1, h2, h3, h4, lastSent, args]

theorem run_list {t : Nat} {p : Nat → ℚ} (l : List ℚ) (h : Mem a3 a4 a5 p s) :
    ∃ s', Ends (sys a1 a2 a3 a4 a5 c) [((0, 0), l.map Atom.float)] { s with now := t } s' ∧
      Mem a3 a4 a5 (listStep p (.ext t 0 (l.map Atom.float))) s' := by
  obtain ⟨h0, h1, h2, h3, h4, h5⟩ := h
  unfold lastSent at *
  simp at h1 h2 h3 h4 h5
  rcases l with _ | ⟨q0, _ | ⟨q1, _ | ⟨q2, _ | ⟨q3, _ | ⟨q4, l⟩⟩⟩⟩⟩
  · refine ⟨?a1, (?ha : Ends (sys a1 a2 a3 a4 a5 c) [((0, 0), [])] _ _), ?_⟩
    case ha => simp [lib_step, lib_biquad, Op.eval]; rfl
    refine ⟨?_, ?_, ?_, ?_, ?_, ?_⟩ <;> simp [lib_step, lastSent, listStep, placeOf, *]
  · refine ⟨?b1, (?hb : Ends (sys a1 a2 a3 a4 a5 c) [((0, 0), [.float q0])] _ _), ?_⟩
    case hb => simp [lib_step, lib_biquad, Op.eval]; rfl
    refine ⟨?_, ?_, ?_, ?_, ?_, ?_⟩ <;> simp [lib_step, lastSent, listStep, placeOf, *]
  · refine ⟨?c1, (?hc : Ends (sys a1 a2 a3 a4 a5 c) [((0, 0), [.float q0, .float q1])] _ _), ?_⟩
    case hc => simp [lib_step, lib_biquad, Op.eval]; rfl
    refine ⟨?_, ?_, ?_, ?_, ?_, ?_⟩ <;> simp [lib_step, lastSent, listStep, placeOf, *]
  · refine ⟨?d1, (?hd : Ends (sys a1 a2 a3 a4 a5 c) [((0, 0), [.float q0, .float q1, .float q2])] _ _), ?_⟩
    case hd => simp [lib_step, lib_biquad, Op.eval]; rfl
    refine ⟨?_, ?_, ?_, ?_, ?_, ?_⟩ <;> simp [lib_step, lastSent, listStep, placeOf, *]
  · refine ⟨?e1, (?he : Ends (sys a1 a2 a3 a4 a5 c) [((0, 0), [.float q0, .float q1, .float q2, .float q3])] _ _), ?_⟩
    case he => simp [lib_step, lib_biquad, Op.eval]; rfl
    refine ⟨?_, ?_, ?_, ?_, ?_, ?_⟩ <;> simp [lib_step, lastSent, listStep, placeOf, *]
  · refine ⟨?f1, (?hf : Ends (sys a1 a2 a3 a4 a5 c) [((0, 0), .float q0 :: .float q1 :: .float q2 :: .float q3 :: .float q4 :: l.map Atom.float)] _ _), ?_⟩
    case hf => simp [lib_step, lib_biquad, Op.eval]; rfl
    refine ⟨?_, ?_, ?_, ?_, ?_, ?_⟩ <;> simp [lib_step, lastSent, listStep, placeOf, *]

theorem simulates (tab : Nat → List ℚ) :
    Simulates (mach a1 a2 a3 a4 a5 c) drv (start c (nodes a1 a2 a3 a4 a5) tab) Lists listStep (args a1 a2 a3 a4 a5) (Mem a3 a4 a5) where
  boot := boot tab
  step {p s e} hs hf hcan := by
    match e, hf with
    | .ext t i m, ⟨h1, l, h2⟩ =>
      subst h1 h2
      obtain ⟨s', h3, h4⟩ := run_list (a1 := a1) (a2 := a2) (c := c) (t := t) l hs
      exact ⟨s', happens_ext.mpr ⟨hcan.1, hcan.2, h3⟩, h4⟩

theorem inlet_of {e : Ev} (he : Lists e) : Inlet e := by
  cases e with
  | ext t i m => rcases he.1 with rfl; simp [Inlet]
  | tick => exact he.elim

/-- **C75** the messages in `[biquad~]`: in the generated code, after every history of lists of numbers, of any length, the filter has been
sent the numbers that came last at each place (or has the arguments); those of the feedback with their signs changed -/
theorem coefficients (M : Mach) (hM : Code a1 a2 a3 a4 a5 c M) (tab : Nat → List ℚ) (es : List Ev) (hes : ∀ e ∈ es, Lists e) (s : St)
    (hr : Runs M drv (start c (nodes a1 a2 a3 a4 a5) tab) es s) :
    lastSent s.log 0 = some (-lastPlace 0 a1 es) ∧ lastSent s.log 1 = some (-lastPlace 1 a2 es) ∧
      (lastSent s.log 2).getD a3 = lastPlace 2 a3 es ∧ (lastSent s.log 3).getD a4 = lastPlace 3 a4 es ∧
      (lastSent s.log 4).getD a5 = lastPlace 4 a5 es := by
  have h := (to_code hM (Fits := Lists) (fun _ => inlet_of) (simulates (a1 := a1) (a2 := a2) tab)).runs hes hr
  obtain ⟨-, h0, h1, h2, h3, h4⟩ := h.1
  rw [list_fold] at h0 h1 h2 h3 h4
  exact ⟨h0, h1, h2, h3, h4⟩

end Biquad
end Verif.Lib

namespace Verif.Sig
open Verif.Reduce
open Verif.Simd (D IsBiquad)
open Verif.BiquadCheck (Stable)
open Verif.Lib (Msg Ctx Mach Ev St Runs Lists lastPlace lastSent start Atom)

/-- the object `o` is a `__biquad_k~f` with the arguments `b0 b1 b2 0 0`: it filters with the numbers that came last at its inlets (C53: the
generated code does; HvSignalBiquad.c:238-250) -/
def IsBiquadWith (W : World ℝ Msg) (o : ℕ) (b0 b1 b2 : ℝ) : Prop := ∀ sig ms, IsBiquad (sig 0) (fun t => held W b0 (ms 1 t))
  (fun t => held W b1 (ms 2 t)) (fun t => held W b2 (ms 3 t)) (fun t => held W 0 (ms 4 t)) (fun t => held W 0 (ms 5 t)) (W.beh o sig ms 0)

/-- the code of `[biquad~]` runs beside the signals -/
def BiquadRuns (a1 a2 a3 a4 a5 : ℚ) (c : Ctx) (M : Mach) (tab : ℕ → List ℚ) (es : ℕ → List Ev) (log : ℕ → List (Sent Msg)) : Prop :=
  ∀ t, ∃ s, Runs M Lib.Biquad.drv (start c (Lib.Biquad.nodes a1 a2 a3 a4 a5) tab) (es t) s ∧
    SentTo (log t) ((Biquad.patch a1 a2 a3 a4 a5).ins 3 4) s.log 0 ∧ SentTo (log t) ((Biquad.patch a1 a2 a3 a4 a5).ins 3 5) s.log 1 ∧
    SentTo (log t) ((Biquad.patch a1 a2 a3 a4 a5).ins 3 1) s.log 2 ∧ SentTo (log t) ((Biquad.patch a1 a2 a3 a4 a5).ins 3 2) s.log 3 ∧
    SentTo (log t) ((Biquad.patch a1 a2 a3 a4 a5).ins 3 3) s.log 4

theorem held_sent_getD {W : World ℝ Msg} (hn : W.num = firstNum) {log : List (Sent Msg)} {ins : List Conn} {k : ℕ}
    {code : List (ℕ × ℕ × Msg)} (h : SentTo log ins code k) (a : ℚ) : held W a (received log ins) = (((lastSent code k).getD a : ℚ) : ℝ) := by
  cases hq : lastSent code k with
  | some q => exact held_sent hn h hq _
  | none =>
    unfold lastSent at hq
    rw [List.getLast?_eq_none_iff] at hq
    rw [h, held, hn, List.filterMap_map]
    have : List.filterMap (firstNum ∘ fun x => x.2.2) (code.filter fun e => e.2.1 = k) = [] := by
      rw [List.filterMap_eq_nil_iff] at hq ⊢
      intro e he
      have := hq e he
      simp only [Function.comp, firstNum]
      split
      · rename_i q l hl; rw [hl] at this; simp at this
      · rfl
    rw [this]; rfl

section biquad
variable {W : World ℝ Msg} {log : ℕ → List (Sent Msg)} {v : ℕ → ℕ → ℕ → ℝ} {a1 a2 a3 a4 a5 : ℚ} {c : Ctx} {M : Mach} {tab : ℕ → List ℚ}
  {es : ℕ → List Ev}

/-- **C75** `[biquad~ fb1 fb2 ff1 ff2 ff3]`: y[n] = ff1 x[n] + ff2 x[n-1] + ff3 x[n-2] + fb1 y[n-1] + fb2 y[n-2] with the coefficients
that came last in a list of numbers, or the arguments (in Pd's order and with Pd's signs) -/
theorem biquad_tilde (hn : W.num = firstNum) (hp : Named (Biquad.special a1 a2 a3 a4 a5) "biquad" (fun o as => IsBiquadWith W o (as.getD 0 1) (as.getD 1 0) (as.getD 2 0))) (h : Solves W (Biquad.patch a1 a2 a3 a4 a5) log v)
    (hM : Lib.Biquad.Code a1 a2 a3 a4 a5 c M) (hr : BiquadRuns a1 a2 a3 a4 a5 c M tab es log) (hes : ∀ t, ∀ e ∈ es t, Lists e) (t : ℕ) :
    let x := v Biquad.in0 0
    let y := inSum v ((Biquad.patch a1 a2 a3 a4 a5).ins Biquad.out0 0)
    y t = (lastPlace 2 a3 (es t) : ℚ) * x t + (lastPlace 3 a4 (es t) : ℚ) * D x 1 t + (lastPlace 4 a5 (es t) : ℚ) * D x 2 t
      + (lastPlace 0 a1 (es t) : ℚ) * D y 1 t + (lastPlace 1 a2 (es t) : ℚ) * D y 2 t := by
  intro x y
  have hp := hp 3 [(a3 : ℝ), a4, a5, 0, 0] (by simp [Biquad.special])
  simp only [List.getD_cons_zero, List.getD_cons_succ] at hp
  obtain ⟨s, hs, m0, m1, m2, m3, m4⟩ := hr t
  obtain ⟨c0, c1, c2, c3, c4⟩ := Lib.Biquad.coefficients M hM tab (es t) (hes t) s hs
  have hb := h 3 (by simp [Biquad.patch, ofConns])
  simp only [Obeys, Biquad.patch, ofConns, Biquad.kind] at hb
  have hq := hp (fun i t => inSum v ((Biquad.patch (a1 : ℝ) a2 a3 a4 a5).ins 3 i) t)
    (fun i t => received (log t) ((Biquad.patch (a1 : ℝ) a2 a3 a4 a5).ins 3 i))
  have e : W.beh 3 (fun i t => inSum v ((Biquad.patch (a1 : ℝ) a2 a3 a4 a5).ins 3 i) t)
    (fun i t => received (log t) ((Biquad.patch (a1 : ℝ) a2 a3 a4 a5).ins 3 i)) 0 = v 3 0 := funext fun t => (hb 0 t).symm
  rw [e] at hq
  have i0 : (fun t => inSum v ((Biquad.patch (a1 : ℝ) a2 a3 a4 a5).ins 3 0) t) = x := by
    funext t; simp [Biquad.patch, ofConns, Biquad.conns, Conn.into, inSum, x]
  have ho : y = v 3 0 := funext fun t => Biquad.o0 t
  rw [i0] at hq
  have ht := hq t
  beta_reduce at ht
  rw [held_sent hn m0 c0, held_sent hn m1 c1, held_sent_getD hn m2, held_sent_getD hn m3, held_sent_getD hn m4, c2, c3, c4] at ht
  rw [ho, ht]
  push_cast
  ring

/-- **C75** `[biquad~ fb1 fb2 ff1 ff2 ff3]` with coefficients that stay as they are: if both roots of z² = fb1 z + fb2 lie inside the unit
circle then a bounded signal comes out bounded -/
theorem biquad_tilde_bounded (hs : Stable (-(a1 : ℝ)) (-(a2 : ℝ))) : ∃ K : ℝ, ∀ (W : World ℝ Msg) (log : ℕ → List (Sent Msg)) (v : ℕ → ℕ → ℕ → ℝ)
    (c : Ctx) (M : Mach) (tab : ℕ → List ℚ) (B : ℝ), W.num = firstNum → Named (Biquad.special a1 a2 a3 a4 a5) "biquad" (fun o as => IsBiquadWith W o (as.getD 0 1) (as.getD 1 0) (as.getD 2 0)) → Solves W (Biquad.patch a1 a2 a3 a4 a5) log v →
    Lib.Biquad.Code a1 a2 a3 a4 a5 c M → BiquadRuns a1 a2 a3 a4 a5 c M tab (fun _ => []) log → (∀ t, |v Biquad.in0 0 t| ≤ B) →
    ∀ t, |inSum v ((Biquad.patch a1 a2 a3 a4 a5).ins Biquad.out0 0) t| ≤ K * B := by
  obtain ⟨K, hK⟩ := biquad_bounded a3 a4 a5 hs
  refine ⟨K, fun W log v c M tab B hn hp h hM hr hB => hK _ _ B (fun t => ?_) hB⟩
  rw [biquad_tilde hn hp h hM hr (by simp) t]
  simp only [lastPlace, List.filterMap_nil, List.getLast?_nil, Option.getD_none]
  ring

/-- a world with a filter -/
noncomputable def biquadWithWorld (o inp : ℕ) (b0 b1 b2 : ℝ) (x : ℕ → ℝ) : World ℝ Msg where
  bin _ _ _ := 0
  un _ _ := 0
  num := firstNum
  beh p sig ms j t :=
    if p = o then (Simd.biquadRec (sig 0)
      (fun t => ((ms 1 t).filterMap firstNum).getLast?.getD b0) (fun t => ((ms 2 t).filterMap firstNum).getLast?.getD b1)
      (fun t => ((ms 3 t).filterMap firstNum).getLast?.getD b2) (fun t => ((ms 4 t).filterMap firstNum).getLast?.getD 0)
      (fun t => ((ms 5 t).filterMap firstNum).getLast?.getD 0) t).1
    else if p = inp ∧ j = 0 then x t else 0
  late _ _ := false
  block := 64

theorem biquadWithWorld_is (o i : ℕ) (b0 b1 b2 : ℝ) (x : ℕ → ℝ) : IsBiquadWith (biquadWithWorld o i b0 b1 b2 x) o b0 b1 b2 := by
  intro sig ms
  have : (biquadWithWorld o i b0 b1 b2 x).beh o sig ms 0 = fun t => (Simd.biquadRec (sig 0)
      (fun t => ((ms 1 t).filterMap firstNum).getLast?.getD b0) (fun t => ((ms 2 t).filterMap firstNum).getLast?.getD b1)
      (fun t => ((ms 3 t).filterMap firstNum).getLast?.getD b2) (fun t => ((ms 4 t).filterMap firstNum).getLast?.getD 0)
      (fun t => ((ms 5 t).filterMap firstNum).getLast?.getD 0) t).1 := by
    funext t; simp [biquadWithWorld]
  rw [this]
  exact Simd.biquadRec_is _ _ _ _ _ _

/-- where `[biquad~]` sends its messages -/
def biquadSrc (k : ℕ) : ℕ × ℕ :=
  if k = 0 then (1, 0) else if k = 1 then (2, 0) else if k = 2 then (6, 0) else if k = 3 then (7, 0) else if k = 4 then (8, 0) else (99, 0)

/-- every signal can be at the inlet of `[biquad~]`, and a list may come after the first block of 64 samples -/
theorem biquad_example (a1 a2 a3 a4 a5 : ℚ) (c : Ctx) (tab : ℕ → List ℚ) (x : ℕ → ℝ) (l : List ℚ) :
    ∃ (W : World ℝ Msg) (log : _) (v : _) (M : Mach) (e : Ev) (es : ℕ → List Ev), W.num = firstNum ∧ Named (Biquad.special a1 a2 a3 a4 a5) "biquad" (fun o as => IsBiquadWith W o (as.getD 0 1) (as.getD 1 0) (as.getD 2 0)) ∧
      Solves W (Biquad.patch a1 a2 a3 a4 a5) log v ∧ Lib.Biquad.Code a1 a2 a3 a4 a5 c M ∧ BiquadRuns a1 a2 a3 a4 a5 c M tab es log ∧
      v Biquad.in0 0 = x ∧ (∃ T, e = .ext T 0 (l.map Atom.float)) ∧ (∀ t, es t = if t < 64 then [] else [e]) ∧ ∀ t, ∀ e ∈ es t, Lists e := by
  obtain ⟨M, hM⟩ := Lib.Biquad.code_exists a1 a2 a3 a4 a5 c
  have hsim := Lib.Biquad.to_code hM (Fits := Lists) (fun _ => Lib.Biquad.inlet_of) (Lib.Biquad.simulates (a1 := a1) (a2 := a2) (a3 := a3)
    (a4 := a4) (a5 := a5) (c := c) tab)
  obtain ⟨s, hs⟩ := hsim.goes_on.1
  have hq : s.q = [] := (hsim.runs (by simp) hs).1.queue
  have hl : Lists (.ext s.now 0 (l.map Atom.float)) := ⟨rfl, l, rfl⟩
  obtain ⟨s', hs'⟩ := hsim.goes_on.2 [] (by simp) s hs _ hl ⟨le_rfl, by simp [hq]⟩
  have hs2 : Runs M Lib.Biquad.drv (start c (Lib.Biquad.nodes a1 a2 a3 a4 a5) tab) [.ext s.now 0 (l.map Atom.float)] s' := hs.snoc hs'
  obtain ⟨v, hv⟩ := Biquad.signals (a1 : ℝ) a2 a3 a4 a5 (biquadWithWorld 3 12 a3 a4 a5 x)
    (fun t => asSent biquadSrc (if t < 64 then s.log else s'.log))
  refine ⟨_, _, v, M, _, fun t => if t < 64 then [] else [_], rfl, named_cons (fun _ => biquadWithWorld_is _ _ _ _ _ _) (named_nil _ _), hv, hM, fun t => ?_, ?_, ⟨s.now, rfl⟩,
    fun t => rfl, fun t e he => ?_⟩
  · refine ⟨if t < 64 then s else s', by by_cases ht : t < 64 <;> simp only [ht, if_true, if_false] <;> assumption, ?_⟩
    beta_reduce
    rw [show (if t < 64 then s.log else s'.log) = (if t < 64 then s else s').log by split <;> rfl]
    refine ⟨?_, ?_, ?_, ?_, ?_⟩
    iterate 5
      · apply sentTo_asSent
        intro j m
        simp only [Biquad.patch, ofConns, Biquad.conns, Conn.into, biquadSrc, received]
        split <;> [skip; (split <;> [skip; (split <;> [skip; (split <;> [skip; split])])])] <;> simp_all
  · funext t
    have := hv 12 (by simp [Biquad.patch, ofConns])
    simp only [Obeys, Biquad.patch, ofConns, Biquad.kind] at this
    rw [this 0 t]
    simp [biquadWithWorld]
  · by_cases ht : t < 64
    · simp [ht] at he
    · simp only [ht, if_false, List.mem_singleton] at he
      rw [he]
      exact hl

end biquad
end Verif.Sig
