import Verif.Props.Whole
/-!
# C87: a patch with feedback

`[adc~]` (0) and `[r~ a]` (2), halved by `[*~ 0.5]` (3), are added by `[+~]` (1), which goes to `[dac~]` (4) and to `[s~ a]` (5).
-/
namespace Verif.Whole.Echo
open Verif.Reduce

/-- the shapes of the objects -/
def sh : Nat → Shape
  | 0 => .input 0
  | _ => .output 0

/-- the objects -/
def kind : Nat → Kind ℚ
  | 1 => .binop "+" 0
  | 2 => .receive "a"
  | 3 => .binop "*" (1 / 2)
  | 5 => .send "a"
  | _ => .other ""

/-- the connections -/
def conns : List Reduce.Conn := [⟨0, 0, 1, 0, .f⟩, ⟨2, 0, 3, 0, .f⟩, ⟨3, 0, 1, 1, .f⟩, ⟨1, 0, 4, 0, .f⟩, ⟨1, 0, 5, 0, .f⟩]

/-- the patch -/
def patch : Reduce.Graph ℚ := ofConns (List.range 6) kind conns

/-- the patch meets the conditions of the theorem, and has no loops of connections -/
theorem compilable : Compilable sh True patch 6 ↑conns where
  wired := ofConns_wired _ _ _
  nodup := List.nodup_range
  below o ho := List.mem_range.1 ho
  ends := by
    have : ∀ c ∈ conns, c.src ∈ List.range 6 ∧ c.dst ∈ List.range 6 := by decide
    exact this
  loop := by
    have : ∀ c ∈ conns, c.src ≠ c.dst := by decide
    exact this
  floats := by
    have : ∀ c ∈ conns, c.ty ≠ .i := by decide
    exact this
  rank := ⟨fun p => if p = 1 then 3 else if p = 4 ∨ p = 5 then 4 else if p = 3 then 1 else 0, by
    have : ∀ c ∈ conns, (if c.src = 1 then (3 : Int) else if c.src = 4 ∨ c.src = 5 then 4 else if c.src = 3 then 1 else 0) <
      (if c.dst = 1 then (3 : Int) else if c.dst = 4 ∨ c.dst = 5 then 4 else if c.dst = 3 then 1 else 0) := by decide
    exact fun c hc => ⟨fun _ => this c hc, fun _ => (this c hc).le, fun _ _ _ => this c hc⟩⟩
  typed τ h := by
    cases h
    refine ⟨?_, fun _ _ _ => trivial, ?_, ?_⟩
    · intro c hc
      simp only [conns, Multiset.mem_coe, List.mem_cons, List.not_mem_nil, or_false] at hc
      rcases hc with rfl | rfl | rfl | rfl | rfl <;> simp [patch, ofConns, kind, Kind.src, Kind.dst, typing, sh]
    · intro o ho op hk
      have : ∀ o op, kind o ≠ .unop op := by intro o y; unfold kind; split <;> simp
      exact absurd hk (this o op)
    · intro w _ w' _ y hk
      have : ∀ o y, kind o ≠ .varWrite y := by intro o y; unfold kind; split <;> simp
      exact absurd hk (this w y)
  reads o ho y hy := by
    have : ∀ o y, kind o ≠ .varRead y := by intro o y; unfold kind; split <;> simp
    exact absurd hy (this o y)
  lets o ho hl := by
    have hl' : ∀ o, (kind o).lang → o = 1 ∨ o = 3 := by intro o; unfold kind; split <;> simp [Kind.lang]
    have h1 : ∀ o ∈ [1, 3], ∀ c ∈ conns, c.dst = o → c.inlet < 2 := by decide
    have h2 : ∀ o ∈ [1, 3], ∀ c ∈ conns, c.src = o → c.outlet = 0 := by decide
    have hm : o ∈ [1, 3] := by simpa using hl' o hl
    have hn : (patch.kind o).numInlets = 2 := by
      rcases hl' o hl with rfl | rfl <;> rfl
    exact ⟨fun c hc h => hn ▸ h1 o hm c hc h, fun c hc h => h2 o hm c hc h⟩
  fits o ho := by
    have n1 : (binName "*" "~f").isSome = true := by decide +kernel
    have n2 : (binName "+" "~f").isSome = true := by decide +kernel
    have hz : ¬ ("*" = "*" ∧ (1 / 2 : ℚ) = 0) := by norm_num
    have hl : (o = 1 ∨ o = 3) ∨ (kind o).lang = false := by unfold kind; split <;> simp [Kind.lang]
    have f : ∀ p i l, ((conns.filter fun c => c.into p i) = l) → fmt (patch.ins p i) = fmt l := by
      intro p i l h; rw [← h]; rfl
    have f' : ∀ p j l, ((conns.filter fun c => c.from p j) = l) → fmt (patch.outs p j) = fmt l := by
      intro p j l h; rw [← h]; rfl
    rcases hl with (rfl | rfl) | h
    · refine .inr (.inl ⟨?_, n2, .inl ⟨?_, .inl ?_⟩⟩)
      · rw [f' 1 0 _ rfl]; decide
      · rw [f 1 0 _ rfl]; decide
      · rw [f 1 1 _ rfl]; decide
    · refine .inr (.inl ⟨?_, n1, .inl ⟨?_, .inr (.inr ⟨?_, hz⟩)⟩⟩)
      · rw [f' 3 0 _ rfl]; decide
      · rw [f 3 0 _ rfl]; decide
      · rw [f 3 1 _ rfl]; decide
    · unfold Fits
      have hk : patch.kind o = kind o := rfl
      cases hk' : patch.kind o with
      | binop op k => rw [← hk, hk'] at h; simp [Kind.lang] at h
      | unop op => rw [← hk, hk'] at h; simp [Kind.lang] at h
      | var op => rw [← hk, hk'] at h; simp [Kind.lang] at h
      | _ => trivial

theorem send_is {o : Nat} {m : String} (h : kind o = .send m) : o = 5 ∧ m = "a" := by
  unfold kind at h
  split at h <;> simp at h
  exact ⟨rfl, h.symm⟩

theorem receive_is {o : Nat} {m : String} (h : kind o = .receive m) : o = 2 ∧ m = "a" := by
  unfold kind at h
  split at h <;> simp at h
  exact ⟨rfl, h.symm⟩

theorem posted : Posted patch ↑conns where
  send s _ m hm := by
    obtain ⟨rfl, -⟩ := send_is hm
    have h : ∀ c ∈ conns, c.src ≠ 5 ∧ (c.dst = 5 → c.inlet = 0) := by decide
    exact h
  receive s _ m hm := by
    obtain ⟨rfl, -⟩ := receive_is hm
    have h : ∀ c ∈ conns, c.dst ≠ 2 ∧ (c.src = 2 → c.outlet = 0) := by decide
    exact h
  sendTy _ _ s _ _ c hc _ := by
    have h : ∀ c ∈ conns, c.ty = .f := by decide
    exact h c hc
  receiveTy _ _ s _ _ c hc _ := by
    have h : ∀ c ∈ conns, c.ty = .f := by decide
    exact h c hc
  write w _ y hy := by
    have : ∀ o y, kind o ≠ .varWrite y := by intro o y; unfold kind; split <;> simp
    exact absurd hy (this w y)

theorem ins5 : patch.ins 5 0 = [⟨1, 0, 5, 0, .f⟩] := rfl

theorem mailed : Mailed patch := by
  have live : hasSignal (patch.ins 5 0) := by rw [ins5]; rfl
  rintro p hp m (h | h)
  · obtain ⟨rfl, rfl⟩ := send_is h
    exact ⟨hp, .inl ⟨_, rfl, live⟩⟩
  · obtain ⟨rfl, rfl⟩ := receive_is h
    exact ⟨hp, .inr ⟨_, rfl, 5, by decide, rfl, live⟩⟩

/-- the input with its echoes: every block later, half as loud -/
def echo (B : Nat) (x : Nat → ℚ) (t : Nat) : ℚ := ((List.range (t / B + 1)).map fun k => x (t - k * B) / 2 ^ k).sum

theorem echo_step {B : Nat} [NeZero B] (x : Nat → ℚ) (t : Nat) :
    echo B x t = x t + (if t < B then 0 else echo B x (t - B)) * (1 / 2) := by
  have hB := NeZero.pos B
  by_cases h : t < B
  · simp [echo, Nat.div_eq_of_lt h, h]
  · rw [if_neg h]
    have e : t / B = (t - B) / B + 1 := by
      rw [Nat.div_eq_sub_div hB (by omega)]
    unfold echo
    rw [e, List.range_succ_eq_map]
    simp only [List.map_cons, List.map_map, List.sum_cons]
    congr 1
    · simp
    · have hsum : ∀ (l : List ℕ) (f : ℕ → ℚ), (l.map f).sum * (1 / 2) = (l.map fun k => f k * (1 / 2)).sum := by
        intro l f
        induction l with
        | nil => simp
        | cons a l ih => simp only [List.map_cons, List.sum_cons, add_mul, ih]
      rw [hsum]
      congr 1
      refine List.map_congr_left fun k _ => ?_
      simp only [Function.comp]
      rw [show t - (k + 1) * B = t - B - k * B by rw [Nat.succ_mul]; omega, pow_succ]
      ring

/-- the signals of the patch -/
def signals (B : Nat) (x : Nat → ℚ) (W : World ℚ μ) (p j t : Nat) : ℚ :=
  let y := echo B x
  let back := if t < B then 0 else y (t - B)
  match p with
  | 1 => y t
  | 2 => back
  | 3 => back * (1 / 2)
  | 4 => W.beh 4 (fun i t => if i = 0 then y t else 0) (fun _ _ => []) j t
  | 5 => 0
  | p => W.beh p (fun _ _ => 0) (fun _ _ => []) j t

/-! ### the loop -/

/-- reads and writes -/
def reading : Kind ℚ → Bool
  | .varRead _ => true
  | _ => false

@[inherit_doc reading]
def writing : Kind ℚ → Bool
  | .varWrite _ => true
  | _ => false

/-- is there a connection? -/
def step (g : Reduce.Graph ℚ) (a b : Nat) : Bool := (g.ins b 0 ++ g.ins b 1).any fun c => decide (c.src = a)

theorem step_path {g : Reduce.Graph ℚ} {a b : Nat} (h : step g a b = true) : ∃ i, ∃ c ∈ g.ins b i, c.src = a := by
  obtain ⟨c, hc, h⟩ := List.any_eq_true.1 h
  rcases List.mem_append.1 hc with hc | hc
  · exact ⟨0, c, hc, of_decide_eq_true h⟩
  · exact ⟨1, c, hc, of_decide_eq_true h⟩

/-- every read is connected to every write, by two objects -/
def looped (g : Reduce.Graph ℚ) : Bool :=
  g.ids.all fun w => g.ids.all fun r => !(writing (g.kind w) && reading (g.kind r)) ||
    (g.ids.any fun a => g.ids.any fun b => step g r a && step g a b && step g b w)

/-- the patch, reduced -/
def reduced : Option (Reduce.Graph ℚ × Nat) := (patch.remap 6).bind fun r => r.1.reduce r.2

theorem reduced_looped : (match reduced with | some r => looped r.1 | none => false) = true := by decide +kernel

theorem loop {g1 g' : Reduce.Graph ℚ} {n1 n' w r : Nat} (h0 : patch.remap 6 = some (g1, n1)) (h1 : g1.reduce n1 = some (g', n'))
    (hw : w ∈ g'.ids) (hr : r ∈ g'.ids) (kw : ∃ y, g'.kind w = .varWrite y) (kr : ∃ y, g'.kind r = .varRead y) : Path g' r w := by
  have e : reduced = some (g', n') := by rw [reduced, h0]; exact h1
  have h := reduced_looped
  rw [e] at h
  obtain ⟨y, kw⟩ := kw
  obtain ⟨y', kr⟩ := kr
  have h := List.all_eq_true.1 (List.all_eq_true.1 h w hw) r hr
  rw [kw, kr] at h
  simp only [writing, reading, Bool.and_self, Bool.not_true, Bool.false_or, List.any_eq_true, Bool.and_eq_true] at h
  obtain ⟨a, -, b, -, ⟨s1, s2⟩, s3⟩ := h
  exact ((Relation.ReflTransGen.single (step_path s1)).tail (step_path s2)).tail (step_path s3)

/-- **C87, an example.**  The program plays, in every block, the input with its echoes: `[r~ a]` leads to `[s~ a]`, so that it
receives what is sent one block later. -/
theorem plays {B : Nat} [NeZero B] (inp : Nat → Nat → ℚ) :
    ∃ g1 n1 g' n' st ss, patch.remap 6 = some (g1, n1) ∧ g1.reduce n1 = some (g', n') ∧
      (later sh (g', n')).1.g.compile = .ok (st, ss) ∧
      ∀ (W : World ℚ Unit), Causal W B → (∀ y m t, W.beh 0 y m 0 t = inp 0 t) →
      ∀ (junk : Nat → Signal.Ty → Nat → Block B ℚ) (b : Nat) (s : Fin B),
        output (kindIn g') (compute W (fun _ => []) sh g' (later sh (g', n')).1.kind) ss (fun b c s => inp c (b * B + s)) junk b 0 s =
          echo B (inp 0) (b * B + s) := by
  obtain ⟨g1, n1, g', n', ρ, wr, rd, late, st, ss, h0, h1, h2, -, -, h3, h4⟩ :=
    patch_plays_partial (μ := Unit) (B := B) compilable posted mailed
  have hlate : late 5 2 = true := by
    obtain ⟨⟨y, w1, w2⟩, w3, w4, -, -, w5⟩ := h3 5 (by decide) 2 (by decide) "a" rfl rfl
    exact w5 (loop h0 h1 w3 w4 ⟨y, w1⟩ ⟨y, w2⟩)
  refine ⟨g1, n1, g', n', st, ss, h0, h1, h2, fun W hW hin junk b s => ?_⟩
  have a0 : ∀ i, patch.ins 0 i = [] := by
    intro i
    rw [List.eq_nil_iff_forall_not_mem]
    intro c hc
    have : ∀ c ∈ conns, c.dst ≠ 0 := by decide
    obtain ⟨h1, h2⟩ := List.mem_filter.1 hc
    exact this c h1 (of_decide_eq_true h2).1
  have a4 : ∀ i, i ≠ 0 → patch.ins 4 i = [] := by
    intro i hi
    rw [List.eq_nil_iff_forall_not_mem]
    intro c hc
    have : ∀ c ∈ conns, c.dst = 4 → c.inlet = 0 := by decide
    obtain ⟨h1, h2⟩ := List.mem_filter.1 hc
    have h2 : c.dst = 4 ∧ c.inlet = i := of_decide_eq_true h2
    have := this c h1 h2.1
    omega
  have a1 : patch.ins 1 0 = [⟨0, 0, 1, 0, .f⟩] := rfl
  have b1 : patch.ins 1 1 = [⟨3, 0, 1, 1, .f⟩] := rfl
  have a3 : patch.ins 3 0 = [⟨2, 0, 3, 0, .f⟩] := rfl
  have b3 : patch.ins 3 1 = [] := rfl
  have a4' : patch.ins 4 0 = [⟨1, 0, 4, 0, .f⟩] := rfl
  let W' : World ℚ Unit := { W with block := B, late := late }
  let v := signals B (inp 0) W
  have e : ∀ k p q i t, operand W' v (fun _ => []) k [⟨p, 0, q, i, .f⟩] t = v p 0 t := by
    intro k p q i t
    rw [operand, if_pos (by simp [hasSignal]), inSum_single rfl]
  have e' : ∀ k t, operand W' v (fun _ => []) k [] t = k := by
    intro k t
    rw [operand_nil]
  have v0 : ∀ t, v 0 0 t = inp 0 t := fun t => hin _ _ t
  have step : ∀ t, v 1 0 t = inp 0 t + v 3 0 t := by
    intro t
    simp only [v, signals]
    simpa using echo_step (B := B) (inp 0) t
  have hv : Solves W' patch (fun _ => []) v := by
    intro o ho
    have ho' : o < 6 := List.mem_range.1 ho
    have hz : o = 0 ∨ o = 1 ∨ o = 2 ∨ o = 3 ∨ o = 4 ∨ o = 5 := by omega
    unfold Obeys
    rcases hz with rfl | rfl | rfl | rfl | rfl | rfl
    · show ∀ j t, v 0 j t = W.beh 0 _ _ j t
      intro j t
      simp only [a0]
      rfl
    · show _ → ∀ t, v 1 0 t = W'.op "+" _ _
      intro _ t
      rw [a1, b1, e, e, v0, step t]
      simp [World.op]
    · show ∀ t, v 2 0 t = (([5] : List Nat).map fun s => lagged W' s 2 (inSum v (patch.ins s 0)) t).sum
      intro t
      have : inSum v (patch.ins 5 0) = v 1 0 := by
        funext t
        rw [ins5, inSum_single rfl]
      simp only [List.map_cons, List.map_nil, List.sum_cons, List.sum_nil, add_zero, this, lagged]
      rw [if_pos (show W'.late 5 2 = true from hlate)]
      rfl
    · show _ → ∀ t, v 3 0 t = W'.op "*" _ _
      intro _ t
      rw [a3, b3, e, e']
      simp [World.op, v, signals]
    · show ∀ j t, v 4 j t = W.beh 4 _ _ j t
      intro j t
      have hx : (fun i t => inSum v (patch.ins 4 i) t) = fun i t => if i = 0 then v 1 0 t else 0 := by
        funext i t
        by_cases hi : i = 0
        · subst hi; rw [a4', inSum_single rfl]; rfl
        · rw [a4 i hi, if_neg hi]; rfl
      rw [hx]
      rfl
    · trivial
  have := ((h4 W' hW rfl (fun _ _ => rfl) inp (fun p hp x ch hk hs y m t => by
    have : p = 0 := by
      unfold sh at hs
      split at hs
      · rfl
      · simp at hs
    subst this
    have : Shape.input 0 = .input ch := hs
    cases this
    exact hin y m t) (fun _ => []) (fun _ _ h => by simp at h)).2 v hv junk b).1 0 s
  refine this.trans ?_
  have hf : patch.ids.filter (isOutput sh patch 0) = [4] := rfl
  simp only [sends, hf, List.map_cons, List.map_nil, List.sum_cons, List.sum_nil, add_zero, a4']
  rw [inSum_single rfl]
  rfl

end Verif.Whole.Echo
