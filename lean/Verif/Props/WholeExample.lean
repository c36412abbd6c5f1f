import Verif.Props.Whole
/-!
# C87: a patch

`[adc~ 1]` (0) into `[*~ 3]` (3), whose right inlet gets messages from `[r x]` (2), which also go to `[osc~]` (1); `[osc~]` into
`[*~ 5]` (4); `[+~]` (5) of the two; to `[dac~ 1]` (6), with the input to `[dac~ 2]` (7), and to `[env~]` (8), `[print]` (9).
-/
namespace Verif.Whole.Example
open Verif.Reduce

/-- the shapes of the objects -/
def sh : Nat → Shape
  | 0 => .input 0
  | 1 => .object 2 [some .f] true
  | 2 => .object 0 [none] false
  | 6 => .output 0
  | 7 => .output 1
  | 8 => .object 1 [none] true
  | _ => .object 1 [] false

/-- the objects -/
def kind : Nat → Kind ℚ
  | 3 => .binop "*" 3
  | 4 => .binop "*" 5
  | 5 => .binop "+" 0
  | _ => .other ""

/-- the connections -/
def conns : List Reduce.Conn := [⟨0, 0, 3, 0, .f⟩, ⟨2, 0, 3, 1, .c⟩, ⟨2, 0, 1, 0, .c⟩, ⟨1, 0, 4, 0, .f⟩, ⟨3, 0, 5, 0, .f⟩, ⟨4, 0, 5, 1, .f⟩,
  ⟨5, 0, 6, 0, .f⟩, ⟨5, 0, 7, 0, .f⟩, ⟨0, 0, 7, 0, .f⟩, ⟨5, 0, 8, 0, .f⟩, ⟨8, 0, 9, 0, .c⟩]

/-- the patch -/
def patch : Reduce.Graph ℚ := ofConns (List.range 10) kind conns

/-- the patch meets the conditions of the theorem, and has no loops -/
theorem compilable : Compilable sh True patch 10 ↑conns where
  wired := ofConns_wired _ _ _
  nodup := List.nodup_range
  below o ho := List.mem_range.1 ho
  ends := by
    have : ∀ c ∈ conns, c.src ∈ List.range 10 ∧ c.dst ∈ List.range 10 := by decide
    exact this
  loop := by
    have : ∀ c ∈ conns, c.src ≠ c.dst := by decide
    exact this
  floats := by
    have : ∀ c ∈ conns, c.ty ≠ .i := by decide
    exact this
  rank := ⟨fun p => if p = 2 then -1 else p, by
    have : ∀ c ∈ conns, (if c.src = 2 then (-1 : Int) else c.src) < (if c.dst = 2 then (-1 : Int) else c.dst) := by decide
    exact fun c hc => ⟨fun _ => this c hc, fun _ => (this c hc).le, fun _ _ _ => this c hc⟩⟩
  typed τ h := by
    cases h
    refine ⟨?_, ?_, ?_, ?_⟩
    · intro c hc
      simp only [conns, Multiset.mem_coe, List.mem_cons, List.not_mem_nil, or_false] at hc
      rcases hc with rfl | rfl | rfl | rfl | rfl | rfl | rfl | rfl | rfl | rfl | rfl <;>
        simp [patch, ofConns, kind, Kind.src, Kind.dst, typing, sh]
    · exact fun _ _ _ => trivial
    · intro o ho op hk
      have : ∀ o op, kind o ≠ .unop op := by intro o y; unfold kind; split <;> simp
      exact absurd hk (this o op)
    · intro w _ w' _ y hk
      have : ∀ o y, kind o ≠ .varWrite y := by intro o y; unfold kind; split <;> simp
      exact absurd hk (this w y)
  reads o ho y hy := by
    have : ∀ o y, kind o ≠ .varRead y := by intro o y; unfold kind; split <;> simp
    exact absurd hy (this o y)
  lets o ho hl := by
    have h1 : ∀ o < 10, ∀ c ∈ conns, (kind o).lang → c.dst = o → c.inlet < (kind o).numInlets := by decide
    have h2 : ∀ o < 10, ∀ c ∈ conns, (kind o).lang → c.src = o → c.outlet = 0 := by decide
    exact ⟨fun c hc h => h1 o (List.mem_range.1 ho) c hc hl h, fun c hc h => h2 o (List.mem_range.1 ho) c hc hl h⟩
  fits o ho := by
    have ho' := List.mem_range.1 ho
    have f : ∀ o < 10, o ∈ [3, 4, 5] ∨ (kind o).lang = false := by decide
    rcases f o ho' with h | h
    · have n1 : (binName "*" "~f").isSome = true := by decide +kernel
      have n2 : (binName "+" "~f").isSome = true := by decide +kernel
      simp only [List.mem_cons, List.not_mem_nil, or_false] at h
      rcases h with rfl | rfl | rfl
      · exact .inr (.inl ⟨by decide, n1, .inl ⟨by decide, .inr (.inl (by decide))⟩⟩)
      · exact .inr (.inl ⟨by decide, n1, .inl ⟨by decide, .inr (.inr ⟨by decide, by decide⟩)⟩⟩)
      · exact .inr (.inl ⟨by decide, n2, .inl ⟨by decide, .inl (by decide)⟩⟩)
    · unfold Fits
      have hk : patch.kind o = kind o := rfl
      cases hk' : patch.kind o with
      | binop op k => rw [← hk, hk'] at h; simp [Kind.lang] at h
      | unop op => rw [← hk, hk'] at h; simp [Kind.lang] at h
      | var op => rw [← hk, hk'] at h; simp [Kind.lang] at h
      | _ => trivial

theorem no_mail (o : Nat) : (∀ m, kind o ≠ .send m) ∧ (∀ m, kind o ≠ .receive m) ∧ kind o ≠ .varSig ∧ ∀ y, kind o ≠ .varWrite y := by
  unfold kind
  split <;> simp

/-- there are no `[send~]`, `[receive~]` -/
theorem posted : Posted patch ↑conns where
  send s _ m h := absurd h ((no_mail s).1 m)
  receive s _ m h := absurd h ((no_mail s).2.1 m)
  sendTy m _ s _ h := absurd h ((no_mail s).1 m)
  receiveTy m _ s _ h := absurd h ((no_mail s).2.1 m)
  write w _ y h := absurd h ((no_mail w).2.2.2 y)

theorem mailed : Mailed patch := fun p _ m h => h.elim (fun h => absurd h ((no_mail p).1 m)) fun h => absurd h ((no_mail p).2.1 m)

/-- what the patch sends to the first output channel -/
theorem sends_first {μ : Type} (W : World ℚ μ) (log : Nat → List (Sent μ)) (inp : Nat → Nat → ℚ)
    (hin : ∀ y m t, W.beh 0 y m 0 t = inp 0 t) {v : Nat → Nat → Nat → ℚ} (hv : Solves W patch log v) (t : Nat) :
    sends sh patch v 0 t = inp 0 t * held W 3 (received (log t) [⟨2, 0, 3, 1, .c⟩]) +
      W.beh 1 (fun _ _ => 0) (fun i t => received (log t) (patch.ins 1 i)) 0 t * 5 := by
  have a3 : patch.ins 3 0 = [⟨0, 0, 3, 0, .f⟩] := by decide
  have b3 : patch.ins 3 1 = [⟨2, 0, 3, 1, .c⟩] := by decide
  have a4 : patch.ins 4 0 = [⟨1, 0, 4, 0, .f⟩] := by decide
  have b4 : patch.ins 4 1 = [] := by decide
  have a5 : patch.ins 5 0 = [⟨3, 0, 5, 0, .f⟩] := by decide
  have b5 : patch.ins 5 1 = [⟨4, 0, 5, 1, .f⟩] := by decide
  have a6 : patch.ins 6 0 = [⟨5, 0, 6, 0, .f⟩] := by decide
  have a1 : ∀ i, (patch.ins 1 i).filter (fun c => c.ty = .f) = [] := by
    intro i
    rw [List.filter_eq_nil_iff]
    intro c hc
    have : ∀ c ∈ conns, c.dst = 1 → ¬ c.ty = .f := by decide
    obtain ⟨h1, h2⟩ := List.mem_filter.1 hc
    have h2 : c.dst = 1 := (of_decide_eq_true h2).1
    simpa using this c h1 h2
  have o0 := hv 0 (by decide)
  have o1 := hv 1 (by decide)
  have o3 := hv 3 (by decide)
  have o4 := hv 4 (by decide)
  have o5 := hv 5 (by decide)
  have k3 : patch.kind 3 = .binop "*" 3 := rfl
  have k4 : patch.kind 4 = .binop "*" 5 := rfl
  have k5 : patch.kind 5 = .binop "+" 0 := rfl
  have k0 : patch.kind 0 = .other "" := rfl
  have k1 : patch.kind 1 = .other "" := rfl
  unfold Obeys at o0 o1 o3 o4 o5
  rw [k0] at o0
  rw [k1] at o1
  rw [k3] at o3
  rw [k4] at o4
  rw [k5] at o5
  simp only [a3, b3] at o3
  simp only [a4, b4, operand_nil] at o4
  simp only [a5, b5] at o5
  have e : ∀ k p q i t, operand W v log k [⟨p, 0, q, i, .f⟩] t = v p 0 t := by
    intro k p q i t
    rw [operand, if_pos (by simp [hasSignal]), inSum_single rfl]
  have e3 : operand W v log 3 [⟨2, 0, 3, 1, .c⟩] t = held W 3 (received (log t) [⟨2, 0, 3, 1, .c⟩]) := rfl
  have z : (fun i t => inSum v (patch.ins 1 i) t) = fun _ _ => 0 := by
    funext i t
    have := a1 i
    unfold inSum
    rw [this]
    rfl
  have q3 := o3 (.inl rfl) t
  have q4 := o4 (.inl rfl) t
  have q5 := o5 (.inl rfl) t
  have q0 := o0 0 t
  have q1 := o1 0 t
  rw [z] at q1
  rw [hin] at q0
  rw [e, e3, q0] at q3
  rw [e, q1] at q4
  rw [e, e, q3, q4] at q5
  have f : (patch.ids.filter (isOutput sh patch 0)) = [6] := by decide
  simp only [sends]
  rw [f]
  simp only [List.map_cons, List.map_nil, List.sum_cons, List.sum_nil, add_zero, a6]
  rw [inSum_single rfl]
  show v 5 0 t = _
  rw [q5]
  simp [World.op]

theorem only_input {p ch : Nat} (h : sh p = .input ch) : p = 0 := by
  unfold sh at h
  split at h <;> first
    | rfl
    | cases h

/-- what the program plays, and `[env~]` is run; `g1` is the patch itself -/
theorem plays {μ : Type} {B : Nat} [NeZero B] (W : World ℚ μ) (hW : Causal W B) (log : Nat → List (Sent μ))
    (hlog : ∀ t, ∀ e ∈ log t, e.src ∈ patch.ids) (inp : Nat → Nat → ℚ) (hin : ∀ y m t, W.beh 0 y m 0 t = inp 0 t) :
    ∃ g1 n1 g' n' ρ st ss, patch.remap 10 = some (g1, n1) ∧ g1.reduce n1 = some (g', n') ∧
      (later sh (g', n')).1.g.compile = .ok (st, ss) ∧ 8 ∈ ss.map (·.id) ∧
      ∀ (junk : Nat → Signal.Ty → Nat → Block B ℚ) (b : Nat) (s : Fin B),
        output (kindIn g') (compute W (rename ρ log) sh g' (later sh (g', n')).1.kind) ss (fun b c s => inp c (b * B + s)) junk b 0 s =
          inp 0 (b * B + s) * held W 3 (received (log (b * B + s)) [⟨2, 0, 3, 1, .c⟩]) +
            W.beh 1 (fun _ _ => 0) (fun i t => received (log t) (patch.ins 1 i)) 0 (b * B + s) * 5 := by
  obtain ⟨g1, n1, g', n', ρ, wr, rd, late, st, ss, h0, h1, h2, -, h3, -, h4⟩ := patch_plays_partial (μ := μ) (B := B) compilable posted mailed
  refine ⟨g1, n1, g', n', ρ, st, ss, h0, h1, h2, h3 trivial 8 (by decide) "" 1 [none] rfl rfl, fun junk b s => ?_⟩
  obtain ⟨⟨v, hv⟩, h5⟩ := h4 { W with block := B, late := late } hW rfl (fun _ _ => rfl) inp (fun p hp x ch _ hs y m t => by
    have h0 := only_input hs
    subst h0
    have : Shape.input 0 = .input ch := hs
    cases this
    exact hin y m t) log hlog
  have := (h5 v hv junk b).1 0 s
  exact this.trans (sends_first { W with block := B, late := late } log inp hin hv _)

end Verif.Whole.Example
