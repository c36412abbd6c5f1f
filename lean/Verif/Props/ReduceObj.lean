import Verif.Props.ReduceCases
/-!
Proofs for C58: all cases of one object, and the loop.
-/
namespace Verif.Reduce

variable {T : Option Typing} {α μ : Type} [DecidableEq α] [Field α]

/-! ### names -/

/-- the operators of `binDict` -/
def binOps : List String := ["+", "-", "*", "/", "max", "min", ">", ">=", "==", "!=", "<", "<=", "&", "&&", "&!", "|", "||", "pow",
  "atan2", "mod", "%", ">>", "<<"]
/-- the functions of `unDict` -/
def unOps : List String := ["log", "log10", "log2", "cos", "acos", "cosh", "acosh", "sin", "asin", "sinh", "asinh", "tan", "atan",
  "tanh", "atanh", "exp", "sqrt", "abs", "floor", "ceil"]

theorem binDict_mem {op : String} (h : op ∉ binOps) : binDict op = none := by
  unfold binDict
  split <;> first | rfl | exact absurd (by decide) h
theorem unDict_mem {op : String} (h : op ∉ unOps) : unDict op = none := by
  unfold unDict
  split <;> first | rfl | exact absurd (by decide) h

theorem irOp_name {op x : String} (h : binName op "~f" = some x) : irOp x = op := by
  by_cases hm : op ∈ binOps
  · have : ∀ op ∈ binOps, (binName op "~f").all (fun x => irOp x = op) = true := by decide +kernel
    have := this op hm
    rw [h] at this
    simpa using this
  · rw [binName, binDict_mem hm] at h; simp at h
theorem irOpC_k {op x : String} (h : binName op "_k" = some x) : irOpC x = op := by
  by_cases hm : op ∈ binOps
  · have : ∀ op ∈ binOps, (binName op "_k").all (fun x => irOpC x = op) = true := by decide +kernel
    have := this op hm
    rw [h] at this
    simpa using this
  · rw [binName, binDict_mem hm] at h; simp at h
theorem irOpC_first {op x : String} (h : binFirst op = some x) : irOpC x = op := by
  by_cases hm : op ∈ binOps
  · have : ∀ op ∈ binOps, (binFirst op).all (fun x => irOpC x = op) = true := by decide +kernel
    have := this op hm
    rw [h] at this
    simpa using this
  · rw [binFirst, binDict_mem hm] at h; simp at h
theorem binFirst_some {op : String} (h : (binDict op).isSome) : ∃ x, binFirst op = some x := by
  by_cases hm : op ∈ binOps
  · have : ∀ op ∈ binOps, (binFirst op).isSome = true := by decide +kernel
    exact Option.isSome_iff_exists.1 (this op hm)
  · rw [binDict_mem hm] at h; simp at h
theorem irFn_name {op x : String} (h : unName op "~f" = some x) : irFn x = op := by
  by_cases hm : op ∈ unOps
  · have : ∀ op ∈ unOps, (unName op "~f").all (fun x => irFn x = op) = true := by decide +kernel
    have := this op hm
    rw [h] at this
    simpa using this
  · rw [unName, unDict_mem hm] at h; simp at h
theorem irFnC_name {op x : String} (h : unName op "" = some x) : irFnC x = op := by
  by_cases hm : op ∈ unOps
  · have : ∀ op ∈ unOps, (unName op "").all (fun x => irFnC x = op) = true := by decide +kernel
    have := this op hm
    rw [h] at this
    simpa using this
  · rw [unName, unDict_mem hm] at h; simp at h

/-! ### formats -/

theorem fmt_nil {l : List Conn} : fmt l = '_' ↔ l = [] := by
  unfold fmt
  constructor
  · intro h
    by_cases h0 : l = []
    · exact h0
    · rw [if_neg h0] at h
      split at h
      · simp at h
      · split at h
        · simp at h
        · split at h <;> simp at h
  · intro h; rw [if_pos h]
theorem fmt_c {l : List Conn} (h : fmt l = 'c') : l ≠ [] ∧ ∀ c ∈ l, c.ty = .c := by
  unfold fmt at h
  by_cases h0 : l = []
  · simp [h0] at h
  · refine ⟨h0, ?_⟩
    rw [if_neg h0] at h
    split at h
    · rename_i h1
      rw [List.all_eq_true] at h1
      intro c hc; simpa using h1 c hc
    · split at h
      · simp at h
      · split at h <;> simp at h
theorem fmt_f {l : List Conn} (h : fmt l = 'f') : l ≠ [] ∧ ∀ c ∈ l, c.ty = .f := by
  unfold fmt at h
  by_cases h0 : l = []
  · simp [h0] at h
  · refine ⟨h0, ?_⟩
    rw [if_neg h0] at h
    split at h
    · simp at h
    · split at h
      · rename_i h1
        rw [List.all_eq_true] at h1
        intro c hc; simpa using h1 c hc
      · split at h <;> simp at h
theorem hasSignal_f {l : List Conn} (h : fmt l = 'f') : hasSignal l = true := by
  obtain ⟨h0, h1⟩ := fmt_f h
  obtain ⟨d, hd⟩ := List.exists_mem_of_ne_nil _ h0
  exact List.any_eq_true.2 ⟨d, hd, by simpa using h1 d hd⟩
theorem hasSignal_c {l : List Conn} (h : ∀ c ∈ l, c.ty = .c) : hasSignal l = false := by
  rw [hasSignal, List.any_eq_false]
  intro c hc
  rw [h c hc]; decide

theorem operand_f {W : World α μ} {log : Nat → List (Sent μ)} {v : Nat → Nat → Nat → α} {k : α} {l : List Conn} {t : Nat}
    (h : fmt l = 'f') : operand W v log k l t = inSum v l t := by rw [operand, if_pos (hasSignal_f h)]
theorem operand_c {W : World α μ} {log : Nat → List (Sent μ)} {v : Nat → Nat → Nat → α} {k : α} {l : List Conn} {t : Nat}
    (h : fmt l = 'c') : operand W v log k l t = held W k (received (log t) l) := by
  rw [operand, if_neg]; rw [hasSignal_c (fmt_c h).2]; simp
theorem operand_nil {W : World α μ} {log : Nat → List (Sent μ)} {v : Nat → Nat → Nat → α} {k : α} {t : Nat} :
    operand W v log k [] t = k := by
  have : received (log t) [] = [] := by
    unfold received; rw [List.flatMap_eq_nil_iff]; intro e _; simp
  rw [operand, if_neg (by simp [hasSignal]), this]; rfl

theorem inSum_single {v : Nat → Nat → Nat → α} {e : Conn} {t : Nat} (h : e.ty = .f) : inSum v [e] t = v e.src e.outlet t := by
  simp [inSum, h]
theorem inSum_cons {v : Nat → Nat → Nat → α} {e : Conn} {l : List Conn} {t : Nat} (h : e.ty = .f) :
    inSum v (e :: l) t = v e.src e.outlet t + inSum v l t := by
  simp [inSum, h]

/-! ### the inlets of the new objects -/

section
variable {g g' : Graph α} {n o x : Nat} {M : Multiset Conn} {xs : List (Kind α)} {ρ : Nat → Nat} {L0 L1 E1 E2 : List Conn}
  {a i b k : Nat}

theorem newIns_filter (d q : Nat) : (newIns L0 L1 a i b k E1 E2).filter (·.into d q) =
    ↑((if a = d ∧ i = q then L0.map (toward a i) else []) ++ (if b = d ∧ k = q then L1.map (toward b k) else []) ++
      (E1 ++ E2).filter (·.into d q)) := by
  have key : ∀ (L : List Conn) (a i : Nat), (L.map (toward a i)).filter (·.into d q) = if a = d ∧ i = q then L.map (toward a i) else [] := by
    intro L a i
    split
    · rename_i h
      rw [List.filter_eq_self]
      intro c hc
      obtain ⟨e, -, rfl⟩ := List.mem_map.1 hc
      exact decide_eq_true h
    · rename_i h
      rw [List.filter_eq_nil_iff]
      intro c hc
      obtain ⟨e, -, rfl⟩ := List.mem_map.1 hc
      exact fun h' => h (of_decide_eq_true h')
  rw [newIns, Multiset.coe_add, Multiset.coe_add, Multiset.filter_coe, List.filter_append, List.filter_append, key, key]

theorem Setup.ins_new (s : Setup T g n M o g' xs (newIns L0 L1 a i b k E1 E2) x 0 ρ) {d : Nat} (hd : n ≤ d) (q : Nat) :
    (g'.ins d q).Perm ((if a = d ∧ i = q then L0.map (toward a i) else []) ++ (if b = d ∧ k = q then L1.map (toward b k) else []) ++
      (E1 ++ E2).filter (·.into d q)) := by
  rw [← Multiset.coe_eq_coe, s.fresh hd, newIns_filter]

theorem inSum_perm {v : Nat → Nat → Nat → α} {l l' : List Conn} (h : l'.Perm l) (t : Nat) : inSum v l' t = inSum v l t :=
  ((h.filter _).map _).sum_eq

theorem received_perm {log : List (Sent μ)} {l l' : List Conn} (h : l'.Perm l) : received log l' = received log l := by
  unfold received
  refine List.flatMap_congr fun e _ => ?_
  rw [h.countP_eq]

theorem inSum_toward {v : Nat → Nat → Nat → α} (L : List Conn) (a i t : Nat) : inSum v (L.map (toward a i)) t = inSum v L t := by
  induction L with
  | nil => rfl
  | cons c L ih =>
    unfold inSum at ih ⊢
    by_cases h : c.ty = .f
    · have h' : (toward a i c).ty = .f := h
      simp only [List.map_cons, List.filter_cons, h, h', decide_true, if_true, List.sum_cons, ih]; rfl
    · have h' : ¬ (toward a i c).ty = .f := h
      simp only [List.map_cons, List.filter_cons, h, h', decide_false, Bool.false_eq_true, if_false, ih]

theorem received_toward {log : List (Sent μ)} (L : List Conn) (a i : Nat) : received log (L.map (toward a i)) = received log L := by
  unfold received
  refine List.flatMap_congr fun e _ => ?_
  rw [List.countP_map]
  rfl

/-- signals into the old object -/
theorem sum_old (r : ReadyT T g n M) {v v' : Nat → Nat → Nat → α} (hv : ∀ p < n, p ≠ o → v' p = v p) {L : List Conn}
    (hL : ∀ c ∈ L, c ∈ M ∧ c.dst = o) (t : Nat) : inSum v' L t = inSum v L t := by
  refine inSum_congr fun c hc _ => ?_
  obtain ⟨h1, h2⟩ := hL c hc
  rw [hv c.src (r.clean.src c h1) (fun h => r.loop c h1 (h.trans h2.symm))]

/-- messages to the old object -/
theorem received_old (s : Setup T g n M o g' xs (newIns L0 L1 a i b k E1 E2) x 0 ρ) {log : Nat → List (Sent μ)}
    (hlog : ∀ t, ∀ e ∈ log t, e.src < n) {L : List Conn} (hL : ∀ c ∈ L, c ∈ M ∧ c.dst = o) (t : Nat) :
    received (rename ρ log t) L = received (log t) L := by
  refine Same.received (r := id) ⟨by simp, fun _ _ => rfl⟩ fun e he c hc hty => ?_
  obtain ⟨h1, h2⟩ := hL c hc
  have := s.ren e.src e.outlet (hlog t e he) c h1 hty
  rwa [newEnd_ne (fun h => s.ready.loop c h1 (h.trans h2.symm))] at this

theorem numInlets_le {K : Kind α} (h : K.lang) : K.numInlets = 1 ∨ K.numInlets = 2 := by
  cases K <;> first | (simp [Kind.numInlets]; done) | simp [Kind.lang] at h

/-- all connections into the object -/
theorem ins_all (r : ReadyT T g n M) (hm : o ∈ g.ids) (hl : (g.kind o).lang) :
    (↑(g.ins o 0 ++ g.ins o 1) : Multiset Conn) = intoObj M o ∧ ((g.kind o).numInlets = 1 → g.ins o 1 = []) := by
  have hn := (r.lets o hm hl).ins r.wired
  rcases numInlets_le hl with h | h
  · have : g.ins o 1 = [] := by
      rw [List.eq_nil_iff_forall_not_mem]
      intro c hc
      obtain ⟨h1, h2, h3⟩ := r.wired.mem_ins.1 hc
      have := (r.lets o hm hl).inlet c h1 h2
      omega
    rw [h] at hn
    rw [this, ← hn]
    simp [List.range_succ]
  · rw [h] at hn
    rw [← hn]
    simp [List.range_succ, h]

theorem mem_in (r : ReadyT T g n M) {q : Nat} : ∀ c ∈ g.ins o q, c ∈ M ∧ c.dst = o := fun c hc =>
  ⟨(r.wired.mem_ins.1 hc).1, (r.wired.mem_ins.1 hc).2.1⟩

end

section
variable {g : Graph α} {n o : Nat} {M : Multiset Conn}

/-- the common form of the cases that keep inlet 0 and inlet 1 apart -/
theorem plain_done (r : ReadyT T g n M) (hm : o ∈ g.ids) (hl : (g.kind o).lang) (xs : List (Kind α)) (a i b k x : Nat)
    (E1 E2 : List Conn) (ha : n ≤ a ∧ a < n + xs.length) (hb : n ≤ b ∧ b < n + xs.length)
    (hx : n ≤ x ∧ x < n + xs.length)
    (hE : ∀ e ∈ E1 ++ E2, e.ty = .f ∧ n ≤ e.src ∧ e.src < n + xs.length ∧ e.src ≠ x ∧ e.dst = x ∧ e.src ≠ a ∧ e.src ≠ b)
    (hs0 : fmt (g.ins o 0) = 'c' ∨ fmt (g.ins o 0) = '_' ∨ a = x) (hs1 : fmt (g.ins o 1) = 'c' ∨ fmt (g.ins o 1) = '_' ∨ b = x)
    (hk : ∀ (i : Nat) (y : Kind α), xs[i]? = some y → y.lang = false ∧ (∀ s, y ≠ .other s) ∧ ((∀ s, y ≠ .send s) ∧ (∀ s, y ≠ .receive s) ∧ ∀ z, y ≠ .varWrite z) ∧
      (n + i ≠ x → (∃ k, y = .varK k) ∨ (∃ k, y = .varS k) ∨ (∃ z, y = .varRead z)) ∧
      ∀ z, y = .varRead z → ∃ q k, z = n + q ∧ xs[q]? = some (.varS k))
    (hq : Quiet g o → ∃ y, xs[x - n]? = some y ∧ Stands (g.kind o) y ∧ a = x ∧ i = 0 ∧ b = x ∧ k = 1)
    (hT : ∀ τ, T = some τ → (∀ y ∈ xs, y.made) ∧ ∃ ya yb yx, xs[a - n]? = some ya ∧ xs[b - n]? = some yb ∧ xs[x - n]? = some yx ∧
      (∀ c ∈ g.ins o 0, ya.dst τ a i c.ty) ∧ (∀ c ∈ g.ins o 1, yb.dst τ b k c.ty) ∧ (∀ c ∈ M, c.src = o → yx.src τ x 0 c.ty) ∧
      ∀ e ∈ E1 ++ E2, (∃ y, xs[e.src - n]? = some y ∧ y.src τ e.src e.outlet e.ty) ∧ yx.dst τ x e.inlet e.ty)
    (V : ∀ g', Setup T g n M o g' xs (newIns (g.ins o 0) (g.ins o 1) a i b k E1 E2) x 0 (fun p => if p = o then x else p) →
      ∀ (W : World α μ) (log : Nat → List (Sent μ)) (v v' : Nat → Nat → Nat → α), (∀ t, ∀ e ∈ log t, e.src < n) →
      (∀ p < n, p ≠ o → v' p = v p) →
      (∀ i, i < xs.length → Obeys W g' (rename (fun p => if p = o then x else p) log) v' (n + i)) →
      (∃ c ∈ M, c.src = o ∧ c.ty = .f) → ∀ t, v' x 0 t = rhs W g log v o t) :
    ∃ g1 g', (g.addObjs n xs).updates ((E1.map fun e => (none, [e])) ++ (toIn (g.ins o 0) a i ++ toIn (g.ins o 1) b k) ++
        fromOut (g.outs o 0) x ++ E2.map fun e => (none, [e])) = some g1 ∧ g1.removeObj o = some g' ∧
      Done T μ g n o g' (n + xs.length) := by
  have hin : ∀ q, ∀ c ∈ g.ins o q, c.inlet = q := fun q c hc => (r.wired.mem_ins.1 hc).2.2
  have hsig : ∀ l : List Conn, ∀ y : Nat, (fmt l = 'c' ∨ fmt l = '_' ∨ y = x) → ∀ c ∈ l, c.ty = .f → y = x := by
    intro l y h c hc hf
    rcases h with h | h | h
    · rw [(fmt_c h).2 c hc] at hf; exact absurd hf (by decide)
    · rw [fmt_nil.1 h] at hc; simp at hc
    · exact h
  refine build_done r hm hl xs a i b k x _ _ E1 E2 (ins_all r hm hl).1 (fun c hc _ => hin 0 c hc)
    (fun c hc _ => by rw [hin 1 c hc]; omega) ha hb hx hE (hsig _ _ hs0) (hsig _ _ hs1) hk ?_ hT V
  intro h
  obtain ⟨y, h1, h2, h3, h4, h5, h6⟩ := hq h
  exact ⟨y, h1, h2, h3, h4, h5, fun c hc => h6.trans (hin 1 c hc).symm⟩

/-- no signal leaves an object whose outlet has the format `c` -/
theorem no_signal (r : ReadyT T g n M) (hm : o ∈ g.ids) (hl : (g.kind o).lang)
    (h : fmt (g.outs o 0) = 'c' ∨ fmt (g.outs o 0) = '_') : ¬ ∃ c ∈ M, c.src = o ∧ c.ty = .f := by
  rintro ⟨c, hc, hs, hf⟩
  have h1 : c ∈ g.outs o 0 := r.wired.mem_outs.2 ⟨hc, hs, (r.lets o hm hl).outlet c hc hs⟩
  rcases h with h | h
  · rw [(fmt_c h).2 c h1] at hf; exact absurd hf (by decide)
  · rw [fmt_nil.1 h] at h1; simp at h1

theorem not_quiet {q : Nat} (h : fmt (g.ins o q) = 'f') : ¬ Quiet g o := fun h' => by
  have := h'.1 q
  rw [hasSignal_f h] at this
  simp at this

theorem not_quiet_out (h : fmt (g.outs o 0) = 'f') : ¬ Quiet g o := fun h' => by
  have := h'.2 0
  rw [hasSignal_f h] at this
  simp at this

/-- one connection -/
theorem filter_one (e : Conn) (d q : Nat) : [e].filter (·.into d q) = if e.dst = d ∧ e.inlet = q then [e] else [] := by
  split
  · rename_i h
    exact List.filter_eq_self.2 fun c hc => by rw [List.mem_singleton.1 hc]; exact decide_eq_true h
  · rename_i h
    exact List.filter_eq_nil_iff.2 fun c hc => by rw [List.mem_singleton.1 hc]; exact fun h' => h (of_decide_eq_true h')

theorem run_binop {op : String} {k : α} {xs : List (Kind α)} {us : List (Option Conn × List Conn)} {g1 g' : Graph α}
    (hk : g.kind o = .binop op k) (hp : g.reduceBinop n o op k = some (xs, us)) (h1 : (g.addObjs n xs).updates us = some g1)
    (h2 : g1.removeObj o = some g') : g.reduceObj n o = some (g', n + xs.length) := by
  simp [Graph.reduceObj, hk, hp, h1, h2]

theorem run_unop {op : String} {xs : List (Kind α)} {us : List (Option Conn × List Conn)} {g1 g' : Graph α}
    (hk : g.kind o = .unop op) (hp : g.reduceUnop n o op = some (xs, us)) (h1 : (g.addObjs n xs).updates us = some g1)
    (h2 : g1.removeObj o = some g') : g.reduceObj n o = some (g', n + xs.length) := by
  simp [Graph.reduceObj, hk, hp, h1, h2]

theorem run_var {k : α} {xs : List (Kind α)} {us : List (Option Conn × List Conn)} {g1 g' : Graph α}
    (hk : g.kind o = .var k) (hp : g.reduceVar n o k = some (xs, us)) (h1 : (g.addObjs n xs).updates us = some g1)
    (h2 : g1.removeObj o = some g') : g.reduceObj n o = some (g', n + xs.length) := by
  simp [Graph.reduceObj, hk, hp, h1, h2]

theorem moveList_two (h : (g.kind o).numInlets = 2) (x : Nat) :
    g.moveList o x = toIn (g.ins o 0) x 0 ++ toIn (g.ins o 1) x 1 ++ fromOut (g.outs o 0) x := by
  simp [Graph.moveList, h, List.range_succ]

theorem moveList_one (h : (g.kind o).numInlets = 1) (x : Nat) :
    g.moveList o x = toIn (g.ins o 0) x 0 ++ fromOut (g.outs o 0) x := by
  simp [Graph.moveList, h, List.range_succ]

/-- all signals from an object with the outlet format `f` -/
theorem all_signal (r : ReadyT T g n M) (hm : o ∈ g.ids) (hl : (g.kind o).lang) (hs : fmt (g.outs o 0) = 'f') :
    ∀ v ∈ M, v.src = o → v.ty = .f := fun v hv h =>
  (fmt_f hs).2 v (r.wired.mem_outs.2 ⟨hv, h, (r.lets o hm hl).outlet v hv h⟩)

/-- all messages from an object with the outlet format `c` -/
theorem all_control (r : ReadyT T g n M) (hm : o ∈ g.ids) (hl : (g.kind o).lang)
    (h : fmt (g.outs o 0) = 'c' ∨ fmt (g.outs o 0) = '_') : ∀ v ∈ M, v.src = o → v.ty = .c := fun v hv e => by
  have h1 : v ∈ g.outs o 0 := r.wired.mem_outs.2 ⟨hv, e, (r.lets o hm hl).outlet v hv e⟩
  rcases h with h | h
  · exact (fmt_c h).2 v h1
  · rw [fmt_nil.1 h] at h1; simp at h1

/-- the result of one object -/
def Goal (T : Option Typing) (μ : Type) (g : Graph α) (n o : Nat) : Prop := ∃ g' n', g.reduceObj n o = some (g', n') ∧ Done T μ g n o g' n'

/-- two signals -/
theorem done_ff (r : ReadyT T g n M) (hm : o ∈ g.ids) {op name : String} {k : α} (hk : g.kind o = .binop op k)
    (h0 : fmt (g.ins o 0) = 'f') (h1 : fmt (g.ins o 1) = 'f') (hs : fmt (g.outs o 0) = 'f') (hn : binName op "~f" = some name) :
    Goal T μ g n o := by
  have hl : (g.kind o).lang := by rw [hk]; rfl
  obtain ⟨g1, g', e1, e2, e3⟩ := plain_done (μ := μ) r hm hl [.irBin name] n 0 n 1 n [] [] (by simp) (by simp) (by simp) (by simp)
    (by simp) (by simp) (by
      intro i y hy
      match i, hy with
      | 0, hy => simp at hy; subst hy; simp [Kind.lang]) (fun h => absurd h (not_quiet h0)) (fun τ hτ => ⟨by simp [Kind.made], .irBin name, .irBin name, .irBin name, by simp, by simp, by simp, fun c hc => ⟨by omega, (fmt_f h0).2 c hc⟩, fun c hc => ⟨by omega, (fmt_f h1).2 c hc⟩, fun c hc h => ⟨rfl, all_signal r hm hl hs c hc h⟩, by simp⟩) (by
    intro g' s W log v v' hlog hv hob _ t
    have kn := s.res.kindNew 0 _ rfl
    rw [Nat.add_zero] at kn
    have q := rhs_of_obeys (hob 0 (by simp)) (by rw [Nat.add_zero, Live, kn]; trivial) t
    rw [Nat.add_zero] at q
    rw [q]
    simp only [rhs, kn, hk, operand_f h0, operand_f h1, irOp_name hn]
    congr 1
    · rw [inSum_perm (s.ins_new (Nat.le_refl n) 0)]
      simp only [and_self, if_true, Nat.one_ne_zero, and_false, if_false, List.append_nil, List.filter_nil, inSum_toward]
      exact sum_old r hv (mem_in r) t
    · rw [inSum_perm (s.ins_new (Nat.le_refl n) 1)]
      simp only [and_self, if_true, Nat.zero_ne_one, and_false, if_false, List.append_nil, List.nil_append, List.filter_nil, inSum_toward]
      exact sum_old r hv (mem_in r) t)
  refine ⟨g', _, run_binop hk (xs := [.irBin name]) (us := g.moveList o n) ?_ ?_ e2, e3⟩
  · simp [Graph.reduceBinop, h0, h1, hs, hn]
  · rw [← e1, moveList_two (by rw [hk]; rfl)]; simp

/-- signal and control -/
theorem done_fc (r : ReadyT T g n M) (hm : o ∈ g.ids) {op name : String} {k : α} (hk : g.kind o = .binop op k)
    (h0 : fmt (g.ins o 0) = 'f') (h1 : fmt (g.ins o 1) = 'c') (hs : fmt (g.outs o 0) = 'f') (hn : binName op "~f" = some name) :
    Goal T μ g n o := by
  have hl : (g.kind o).lang := by rw [hk]; rfl
  obtain ⟨g1, g', e1, e2, e3⟩ := plain_done (μ := μ) r hm hl [.irBin name, .varS k, .varRead (n + 1)] n 0 (n + 1) 0 n
    [⟨n + 2, 0, n, 1, .f⟩] [] (by simp) (by simp) (by simp) (by simp)
    (by simp) (by simp [h1]) (by
      intro i y hy
      match i, hy with
      | 0, hy => simp at hy; subst hy; simp [Kind.lang]
      | 1, hy => simp at hy; subst hy; simp [Kind.lang]
      | 2, hy => simp at hy; subst hy; simp [Kind.lang]) (fun h => absurd h (not_quiet h0)) (fun τ hτ => ⟨by simp [Kind.made], .irBin name, .varS k, .irBin name, by simp, by simp, by simp, fun c hc => ⟨by omega, (fmt_f h0).2 c hc⟩, fun c hc => ⟨rfl, (fmt_c h1).2 c hc⟩, fun c hc h => ⟨rfl, all_signal r hm hl hs c hc h⟩, by simp [Kind.src, Kind.dst]⟩) (by
    intro g' s W log v v' hlog hv hob _ t
    have kn := s.res.kindNew 0 _ rfl
    have kn1 := s.res.kindNew 1 _ rfl
    have kn2 := s.res.kindNew 2 _ rfl
    rw [Nat.add_zero] at kn
    have q := rhs_of_obeys (hob 0 (by simp)) (by rw [Nat.add_zero, Live, kn]; trivial) t
    have q2 := rhs_of_obeys (hob 2 (by simp)) (by rw [Live, kn2]; exact ⟨_, kn1⟩) t
    rw [Nat.add_zero] at q
    rw [q]
    simp only [rhs, kn2, kn1] at q2
    simp only [rhs, kn, hk, operand_f h0, operand_c h1, irOp_name hn]
    congr 1
    · rw [inSum_perm (s.ins_new (Nat.le_refl n) 0)]
      have hnn : ¬ n + 1 = n := by omega
      simp only [hnn, filter_one, and_self, if_true, Nat.one_ne_zero, and_false, false_and, if_false, List.append_nil, inSum_toward]
      exact sum_old r hv (mem_in r) t
    · rw [inSum_perm (s.ins_new (Nat.le_refl n) 1)]
      have hnn : ¬ n + 1 = n := by omega
      simp only [hnn, filter_one, and_self, if_true, Nat.zero_ne_one, and_false, if_false, List.append_nil, List.nil_append]
      rw [inSum_single rfl]
      refine q2.trans ?_
      congr 1
      rw [received_perm (s.ins_new (Nat.le_succ n) 0)]
      have hnn : ¬ n = n + 1 := by omega
      simp only [hnn, filter_one, and_self, if_true, Nat.one_ne_zero, false_and, if_false, List.append_nil, List.nil_append,
        received_toward]
      exact received_old s hlog (mem_in r) t)
  refine ⟨g', _, run_binop hk (xs := [.irBin name, .varS k, .varRead (n + 1)]) (us := (none, [⟨n + 2, 0, n, 1, .f⟩]) ::
    toIn (g.ins o 0) n 0 ++ toIn (g.ins o 1) (n + 1) 0 ++ fromOut (g.outs o 0) n) ?_ ?_ e2, e3⟩
  · simp [Graph.reduceBinop, h0, h1, hs, hn]
  · rw [← e1]; simp

/-- control and signal -/
theorem done_cf (r : ReadyT T g n M) (hm : o ∈ g.ids) {op name : String} {k : α} (hk : g.kind o = .binop op k)
    (h0 : fmt (g.ins o 0) = 'c') (h1 : fmt (g.ins o 1) = 'f') (hs : fmt (g.outs o 0) = 'f') (hn : binName op "~f" = some name) :
    Goal T μ g n o := by
  have hl : (g.kind o).lang := by rw [hk]; rfl
  obtain ⟨g1, g', e1, e2, e3⟩ := plain_done (μ := μ) r hm hl [.irBin name, .varS 0, .varRead (n + 1)] (n + 1) 0 n 1 n
    [⟨n + 2, 0, n, 0, .f⟩] [] (by simp) (by simp) (by simp) (by simp)
    (by simp [h0]) (by simp) (by
      intro i y hy
      match i, hy with
      | 0, hy => simp at hy; subst hy; simp [Kind.lang]
      | 1, hy => simp at hy; subst hy; simp [Kind.lang]
      | 2, hy => simp at hy; subst hy; simp [Kind.lang]) (fun h => absurd h (not_quiet h1)) (fun τ hτ => ⟨by simp [Kind.made], .varS 0, .irBin name, .irBin name, by simp, by simp, by simp, fun c hc => ⟨rfl, (fmt_c h0).2 c hc⟩, fun c hc => ⟨by omega, (fmt_f h1).2 c hc⟩, fun c hc h => ⟨rfl, all_signal r hm hl hs c hc h⟩, by simp [Kind.src, Kind.dst]⟩) (by
    intro g' s W log v v' hlog hv hob _ t
    have kn := s.res.kindNew 0 _ rfl
    have kn1 := s.res.kindNew 1 _ rfl
    have kn2 := s.res.kindNew 2 _ rfl
    rw [Nat.add_zero] at kn
    have q := rhs_of_obeys (hob 0 (by simp)) (by rw [Nat.add_zero, Live, kn]; trivial) t
    have q2 := rhs_of_obeys (hob 2 (by simp)) (by rw [Live, kn2]; exact ⟨_, kn1⟩) t
    rw [Nat.add_zero] at q
    rw [q]
    simp only [rhs, kn2, kn1] at q2
    simp only [rhs, kn, hk, operand_c h0, operand_f h1, irOp_name hn]
    congr 1
    · rw [inSum_perm (s.ins_new (Nat.le_refl n) 0)]
      have hnn : ¬ n + 1 = n := by omega
      simp only [hnn, filter_one, and_self, if_true, Nat.one_ne_zero, and_false, false_and, if_false, List.append_nil, List.nil_append]
      rw [inSum_single rfl]
      refine q2.trans ?_
      congr 1
      rw [received_perm (s.ins_new (Nat.le_succ n) 0)]
      have hnn : ¬ n = n + 1 := by omega
      simp only [hnn, filter_one, and_self, if_true, Nat.one_ne_zero, false_and, if_false, List.append_nil,
        received_toward]
      exact received_old s hlog (mem_in r) t
    · rw [inSum_perm (s.ins_new (Nat.le_refl n) 1)]
      have hnn : ¬ n + 1 = n := by omega
      simp only [hnn, filter_one, and_self, if_true, Nat.zero_ne_one, and_false, if_false, List.append_nil, List.nil_append,
        inSum_toward]
      exact sum_old r hv (mem_in r) t)
  refine ⟨g', _, run_binop hk (xs := [.irBin name, .varS 0, .varRead (n + 1)]) (us := (none, [⟨n + 2, 0, n, 0, .f⟩]) ::
    toIn (g.ins o 0) (n + 1) 0 ++ toIn (g.ins o 1) n 1 ++ fromOut (g.outs o 0) n) ?_ ?_ e2, e3⟩
  · simp [Graph.reduceBinop, h0, h1, hs, hn]
  · rw [← e1]; simp

/-- a constant on the right -/
theorem done_const (r : ReadyT T g n M) (hm : o ∈ g.ids) {op name : String} {k : α} (hk : g.kind o = .binop op k)
    (h0 : fmt (g.ins o 0) = 'f') (h1 : g.ins o 1 = []) (hs : fmt (g.outs o 0) = 'f') (hn : binName op "~f" = some name)
    (hid : isIdentity op k = false) (hz : ¬ (op = "*" ∧ k = 0)) (hneg : ¬ (op = "*" ∧ k = -1)) :
    Goal T μ g n o := by
  have hl : (g.kind o).lang := by rw [hk]; rfl
  obtain ⟨g1, g', e1, e2, e3⟩ := plain_done (μ := μ) r hm hl [.irBin name, .varK k] n 0 n 1 n
    [] [⟨n + 1, 0, n, 1, .f⟩] (by simp) (by simp) (by simp) (by simp)
    (by simp) (by simp) (by
      intro i y hy
      match i, hy with
      | 0, hy => simp at hy; subst hy; simp [Kind.lang]
      | 1, hy => simp at hy; subst hy; simp [Kind.lang]) (fun h => absurd h (not_quiet h0)) (fun τ hτ => ⟨by simp [Kind.made], .irBin name, .irBin name, .irBin name, by simp, by simp, by simp, fun c hc => ⟨by omega, (fmt_f h0).2 c hc⟩, by simp [h1], fun c hc h => ⟨rfl, all_signal r hm hl hs c hc h⟩, by simp [Kind.src, Kind.dst]⟩) (by
    intro g' s W log v v' hlog hv hob _ t
    have kn := s.res.kindNew 0 _ rfl
    have kn1 := s.res.kindNew 1 _ rfl
    rw [Nat.add_zero] at kn
    have q := rhs_of_obeys (hob 0 (by simp)) (by rw [Nat.add_zero, Live, kn]; trivial) t
    have q2 := rhs_of_obeys (hob 1 (by simp)) (by rw [Live, kn1]; trivial) t
    rw [Nat.add_zero] at q
    rw [q]
    simp only [rhs, kn1] at q2
    simp only [rhs, kn, hk, operand_f h0, h1, operand_nil, irOp_name hn]
    congr 1
    · rw [inSum_perm (s.ins_new (Nat.le_refl n) 0)]
      simp only [filter_one, and_self, if_true, Nat.one_ne_zero, and_false, if_false, List.append_nil, List.nil_append, inSum_toward]
      exact sum_old r hv (mem_in r) t
    · rw [inSum_perm (s.ins_new (Nat.le_refl n) 1)]
      simp only [h1, List.map_nil, filter_one, and_self, if_true, Nat.zero_ne_one, and_false, if_false, List.nil_append]
      rw [inSum_single rfl]
      exact q2)
  refine ⟨g', _, run_binop hk (xs := [.irBin name, .varK k]) (us := g.moveList o n ++ [(none, [⟨n + 1, 0, n, 1, .f⟩])]) ?_ ?_ e2, e3⟩
  · have h1' : fmt (g.ins o 1) = '_' := fmt_nil.2 h1
    simp [Graph.reduceBinop, h0, h1', hs, hn, hid, Graph.reduceConst, hz, hneg]
  · rw [← e1, moveList_two (by rw [hk]; rfl)]; simp

/-- multiplication by -1 -/
theorem done_neg (r : ReadyT T g n M) (hm : o ∈ g.ids) {k : α} (hk : g.kind o = .binop "*" k)
    (h0 : fmt (g.ins o 0) = 'f') (h1 : g.ins o 1 = []) (hs : fmt (g.outs o 0) = 'f')
    (hid : isIdentity "*" k = false) (hz : k ≠ 0) (hneg : k = -1) :
    Goal T μ g n o := by
  have hl : (g.kind o).lang := by rw [hk]; rfl
  obtain ⟨g1, g', e1, e2, e3⟩ := plain_done (μ := μ) r hm hl [.irUn "__neg~f"] n 0 n 1 n [] [] (by simp) (by simp) (by simp) (by simp)
    (by simp) (by simp) (by
      intro i y hy
      match i, hy with
      | 0, hy => simp at hy; subst hy; simp [Kind.lang]) (fun h => absurd h (not_quiet h0)) (fun τ hτ => ⟨by simp [Kind.made], .irUn "__neg~f", .irUn "__neg~f", .irUn "__neg~f", by simp, by simp, by simp, fun c hc => ⟨rfl, (fmt_f h0).2 c hc⟩, by simp [h1], fun c hc h => ⟨rfl, all_signal r hm hl hs c hc h⟩, by simp⟩) (by
    intro g' s W log v v' hlog hv hob _ t
    have kn := s.res.kindNew 0 _ rfl
    rw [Nat.add_zero] at kn
    have q := rhs_of_obeys (hob 0 (by simp)) (by rw [Nat.add_zero, Live, kn]; trivial) t
    rw [Nat.add_zero] at q
    rw [q]
    simp only [rhs, kn, hk, operand_f h0, h1, operand_nil]
    rw [inSum_perm (s.ins_new (Nat.le_refl n) 0)]
    simp only [and_self, if_true, Nat.one_ne_zero, and_false, if_false, List.append_nil, List.filter_nil, inSum_toward]
    rw [sum_old r hv (mem_in r) t, hneg]
    simp [World.fn, World.op, irFn])
  refine ⟨g', _, run_binop hk (xs := [.irUn "__neg~f"]) (us := g.moveList o n) ?_ ?_ e2, e3⟩
  · have h1' : fmt (g.ins o 1) = '_' := fmt_nil.2 h1
    have hn : binName "*" "~f" = some "__mul~f" := by decide +kernel
    simp [Graph.reduceBinop, h0, h1', hs, hn, hid, Graph.reduceConst, hz]
    simp [hneg]
  · rw [← e1, moveList_two (by rw [hk]; rfl)]; simp

/-- an identity changes nothing -/
theorem identity_op (W : World α μ) {op : String} {k : α} (h : isIdentity op k = true) (a : α) : W.op op a k = a := by
  unfold isIdentity at h
  simp only [Bool.or_eq_true, Bool.and_eq_true, decide_eq_true_eq] at h
  rcases h with ((⟨rfl, rfl⟩ | ⟨rfl, rfl⟩) | ⟨rfl, rfl⟩) | ⟨rfl, rfl⟩ <;> simp [World.op]

/-- an identity -/
theorem done_id (r : ReadyT T g n M) (hm : o ∈ g.ids) {op name : String} {k : α} (hk : g.kind o = .binop op k)
    (h0 : fmt (g.ins o 0) = 'f') (h1 : g.ins o 1 = []) (hs : fmt (g.outs o 0) = 'f') (hn : binName op "~f" = some name)
    (hid : isIdentity op k = true) : Goal T μ g n o := by
  have hl : (g.kind o).lang := by rw [hk]; rfl
  have h1' : fmt (g.ins o 1) = '_' := fmt_nil.2 h1
  have hall := (ins_all r hm hl).1
  rw [h1, List.append_nil] at hall
  have hty := (fmt_f h0).2
  have hrhs : ∀ (W : World α μ) log v t, rhs W g log v o t = inSum v (g.ins o 0) t := by
    intro W log v t
    simp only [rhs, hk, operand_f h0, h1, operand_nil, identity_op W hid]
  have hplan : g.reduceBinop n o op k = some (g.reduceIdentity n o) := by
    simp [Graph.reduceBinop, h0, h1', hs, hn, hid]
  match hL : g.ins o 0 with
  | [] => exact absurd hL (fmt_f h0).1
  | [c] =>
    rw [hL] at hall hty hrhs
    have hne : g.outs o 0 ≠ [] := (fmt_f hs).1
    obtain ⟨g1, g', e1, e2, e3⟩ := pass_done (μ := μ) r hm hk c hall.symm hne (hty c (by simp)) (all_signal r hm hl hs) (by
      intro W log v t
      rw [hrhs, inSum_single (hty c (by simp))])
    refine ⟨g', _, run_binop hk (xs := [])
      (us := [(some c, (g.outs o 0).map fun v : Conn => ({ c with dst := v.dst, inlet := v.inlet } : Conn))]) ?_ e1 e2, e3⟩
    rw [hplan, Graph.reduceIdentity, hL]
  | c :: d :: cs =>
    rw [hL] at hall hty hrhs
    obtain ⟨g1, g', e1, e2, e3⟩ := build_done (μ := μ) r hm hl [.irBin "__add~f"] n 0 n 1 n [c] (d :: cs) [] [] hall
      (by intro e he h; rw [hty e (by simp at he; simp [he])] at h; exact absurd h (by decide))
      (by intro e he h; rw [hty e (by rw [List.mem_cons]; exact .inr he)] at h; exact absurd h (by decide))
      (by simp) (by simp) (by simp) (by simp) (by simp) (by simp) (by
      intro i y hy
      match i, hy with
      | 0, hy => simp at hy; subst hy; simp [Kind.lang]) (fun h => absurd h (not_quiet h0)) (fun τ hτ => ⟨by simp [Kind.made], .irBin "__add~f", .irBin "__add~f", .irBin "__add~f", by simp, by simp, by simp, fun e he => ⟨by omega, hty e (by simp at he; simp [he])⟩, fun e he => ⟨by omega, hty e (by rw [List.mem_cons]; exact .inr he)⟩, fun c hc h => ⟨rfl, all_signal r hm hl hs c hc h⟩, by simp⟩) (by
      intro g' s W log v v' hlog hv hob _ t
      have kn := s.res.kindNew 0 _ rfl
      rw [Nat.add_zero] at kn
      have q := rhs_of_obeys (hob 0 (by simp)) (by rw [Nat.add_zero, Live, kn]; trivial) t
      rw [Nat.add_zero] at q
      rw [q, hrhs, inSum_cons (hty c (by simp)), ← inSum_single (v := v) (hty c (by simp))]
      have hmi : ∀ e ∈ c :: d :: cs, e ∈ M ∧ e.dst = o := by
        intro e he
        exact mem_in r e (by rw [hL]; exact he)
      have i0 : inSum v' (g'.ins n 0) t = inSum v [c] t := by
        rw [inSum_perm (s.ins_new (Nat.le_refl n) 0)]
        simp only [and_self, if_true, Nat.one_ne_zero, and_false, if_false, List.append_nil, List.filter_nil, inSum_toward]
        exact sum_old r hv (fun e he => hmi e (by simp at he; simp [he])) t
      have i1 : inSum v' (g'.ins n 1) t = inSum v (d :: cs) t := by
        rw [inSum_perm (s.ins_new (Nat.le_refl n) 1)]
        simp only [and_self, if_true, Nat.zero_ne_one, and_false, if_false, List.append_nil, List.nil_append, List.filter_nil, inSum_toward]
        exact sum_old r hv (fun e he => hmi e (by rw [List.mem_cons]; exact .inr he)) t
      simp only [rhs, kn, i0, i1]
      simp [World.op, irOp])
    refine ⟨g', _, run_binop hk (xs := [.irBin "__add~f"]) (us := toIn [c] n 0 ++ toIn (d :: cs) n 1 ++ fromOut (g.outs o 0) n) ?_ ?_ e2, e3⟩
    · rw [hplan, Graph.reduceIdentity, hL]
    · rw [← e1]; simp

/-- an operator on messages -/
theorem done_ctl (r : ReadyT T g n M) (hm : o ∈ g.ids) {op name : String} {k : α} (hk : g.kind o = .binop op k)
    (h0 : fmt (g.ins o 0) = 'c') (h1 : fmt (g.ins o 1) = 'c' ∨ fmt (g.ins o 1) = '_') (hs : fmt (g.outs o 0) = 'c')
    (hn : irOpC name = op) (hp : g.reduceBinop n o op k = some ([.irBinC name k], g.moveList o n)) : Goal T μ g n o := by
  have hl : (g.kind o).lang := by rw [hk]; rfl
  obtain ⟨g1, g', e1, e2, e3⟩ := plain_done (μ := μ) r hm hl [.irBinC name k] n 0 n 1 n [] [] (by simp) (by simp) (by simp) (by simp)
    (by simp) (by simp) (by
      intro i y hy
      match i, hy with
      | 0, hy => simp at hy; subst hy; simp [Kind.lang]) (by
    intro _
    exact ⟨.irBinC name k, by simp, by rw [hk]; exact ⟨hn, rfl⟩, rfl, rfl, rfl, rfl⟩) (fun τ hτ => ⟨by simp [Kind.made], .irBinC name k, .irBinC name k, .irBinC name k, by simp, by simp, by simp, fun c hc => ⟨by omega, (fmt_c h0).2 c hc⟩, fun c hc => ⟨by omega, h1.elim (fun h => (fmt_c h).2 c hc) fun h => by rw [fmt_nil.1 h] at hc; simp at hc⟩, fun c hc h => ⟨rfl, all_control r hm hl (.inl hs) c hc h⟩, by simp⟩) (by
    intro g' s W log v v' _ _ _ h
    exact absurd h (no_signal r hm hl (.inl hs)))
  refine ⟨g', _, run_binop hk hp ?_ e2, e3⟩
  rw [← e1, moveList_two (by rw [hk]; rfl)]; simp

/-- all binary operators -/
theorem done_binop (r : ReadyT T g n M) (hm : o ∈ g.ids) {op : String} {k : α} (hk : g.kind o = .binop op k) : Goal T μ g n o := by
  have hF := r.fits o hm
  rw [Fits, hk] at hF
  by_cases hs : fmt (g.outs o 0) = '_'
  · obtain ⟨g', e1, e2⟩ := drop_done (μ := μ) r hm hk (fmt_nil.1 hs)
    exact ⟨g', _, run_binop hk (xs := []) (us := []) (by simp [Graph.reduceBinop, hs]) rfl e1, e2⟩
  · rcases hF with h | ⟨hs', hn, h⟩ | ⟨hs', h0, h⟩
    · exact absurd h hs
    · obtain ⟨name, hn⟩ := Option.isSome_iff_exists.1 hn
      rcases h with ⟨h0, h1 | h1 | ⟨h1, hz⟩⟩ | ⟨h0, h1⟩
      · exact done_ff r hm hk h0 h1 hs' hn
      · exact done_fc r hm hk h0 h1 hs' hn
      · have h1' := fmt_nil.1 h1
        cases hid : isIdentity op k with
        | true => exact done_id r hm hk h0 h1' hs' hn hid
        | false =>
          by_cases hneg : op = "*" ∧ k = -1
          · obtain ⟨rfl, hk1⟩ := hneg
            exact done_neg r hm hk h0 h1' hs' hid (fun h => hz ⟨rfl, h⟩) hk1
          · exact done_const r hm hk h0 h1' hs' hn hid hz hneg
      · exact done_cf r hm hk h0 h1 hs' hn
    · rcases h with ⟨h1, hd⟩ | ⟨h1, hn⟩
      · obtain ⟨name, hn⟩ := binFirst_some hd
        exact done_ctl r hm hk h0 (.inl h1) hs' (irOpC_first hn) (by simp [Graph.reduceBinop, h0, h1, hs', hn])
      · obtain ⟨name, hn⟩ := Option.isSome_iff_exists.1 hn
        exact done_ctl r hm hk h0 (.inr h1) hs' (irOpC_k hn) (by simp [Graph.reduceBinop, h0, h1, hs', hn])

/-- all unary functions -/
theorem done_unop (r : ReadyT T g n M) (hm : o ∈ g.ids) {op : String} (hk : g.kind o = .unop op) : Goal T μ g n o := by
  have hF := r.fits o hm
  have hl : (g.kind o).lang := by rw [hk]; rfl
  have h1 : g.ins o 1 = [] := (ins_all r hm hl).2 (by rw [hk]; rfl)
  rw [Fits, hk] at hF
  rcases hF with ⟨h0, hn⟩ | ⟨h0, hn, hs⟩
  · obtain ⟨name, hn⟩ := Option.isSome_iff_exists.1 hn
    obtain ⟨g1, g', e1, e2, e3⟩ := plain_done (μ := μ) r hm hl [.irUn name] n 0 n 1 n [] [] (by simp) (by simp) (by simp) (by simp)
      (by simp) (by simp) (by
        intro i y hy
        match i, hy with
        | 0, hy => simp at hy; subst hy; simp [Kind.lang]) (fun h => absurd h (not_quiet h0)) (fun τ hτ => ⟨by simp [Kind.made], .irUn name, .irUn name, .irUn name, by simp, by simp, by simp, fun c hc => ⟨rfl, (fmt_f h0).2 c hc⟩, by simp [h1], fun c hc h => ⟨rfl, (r.typed τ hτ).2.2.1 o hm op hk h0 c hc h⟩, by simp⟩) (by
      intro g' s W log v v' hlog hv hob _ t
      have kn := s.res.kindNew 0 _ rfl
      rw [Nat.add_zero] at kn
      have q := rhs_of_obeys (hob 0 (by simp)) (by rw [Nat.add_zero, Live, kn]; trivial) t
      rw [Nat.add_zero] at q
      rw [q]
      simp only [rhs, kn, hk, irFn_name hn]
      rw [inSum_perm (s.ins_new (Nat.le_refl n) 0)]
      simp only [and_self, if_true, Nat.one_ne_zero, and_false, if_false, List.append_nil, List.filter_nil, inSum_toward]
      rw [sum_old r hv (mem_in r) t])
    refine ⟨g', _, run_unop hk (xs := [.irUn name]) (us := g.moveList o n) ?_ ?_ e2, e3⟩
    · simp [Graph.reduceUnop, h0, hn]
    · rw [← e1, moveList_one (by rw [hk]; rfl)]; simp [h1, toIn]
  · obtain ⟨name, hn⟩ := Option.isSome_iff_exists.1 hn
    obtain ⟨g1, g', e1, e2, e3⟩ := plain_done (μ := μ) r hm hl [.irUnC name] n 0 n 1 n [] [] (by simp) (by simp) (by simp) (by simp)
      (by simp) (by simp) (by
        intro i y hy
        match i, hy with
        | 0, hy => simp at hy; subst hy; simp [Kind.lang]) (by
      intro _
      exact ⟨.irUnC name, by simp, by rw [hk]; exact irFnC_name hn, rfl, rfl, rfl, rfl⟩) (fun τ hτ => ⟨by simp [Kind.made], .irUnC name, .irUnC name, .irUnC name, by simp, by simp, by simp, fun c hc => ⟨rfl, (fmt_c h0).2 c hc⟩, by simp [h1], fun c hc h => ⟨rfl, all_control r hm hl hs.symm c hc h⟩, by simp⟩) (by
      intro g' s W log v v' _ _ _ h
      exact absurd h (no_signal r hm hl (hs.symm)))
    refine ⟨g', _, run_unop hk (xs := [.irUnC name]) (us := g.moveList o n) ?_ ?_ e2, e3⟩
    · simp [Graph.reduceUnop, h0, hn]
    · rw [← e1, moveList_one (by rw [hk]; rfl)]; simp [h1, toIn]

/-- all variables -/
theorem done_var (r : ReadyT T g n M) (hm : o ∈ g.ids) {k : α} (hk : g.kind o = .var k) : Goal T μ g n o := by
  have hF := r.fits o hm
  have hl : (g.kind o).lang := by rw [hk]; rfl
  have h1 : g.ins o 1 = [] := (ins_all r hm hl).2 (by rw [hk]; rfl)
  rw [Fits, hk] at hF
  obtain ⟨h0, hs⟩ := hF
  by_cases hs' : fmt (g.outs o 0) = 'f'
  · by_cases h0' : fmt (g.ins o 0) = '_'
    · have h0n := fmt_nil.1 h0'
      obtain ⟨g1, g', e1, e2, e3⟩ := plain_done (μ := μ) r hm hl [.varK k] n 0 n 1 n [] [] (by simp) (by simp) (by simp) (by simp)
        (by simp) (by simp) (by
          intro i y hy
          match i, hy with
          | 0, hy => simp at hy; subst hy; simp [Kind.lang]) (fun h => absurd h (not_quiet_out hs')) (fun τ hτ => ⟨by simp [Kind.made], .varK k, .varK k, .varK k, by simp, by simp, by simp, by simp [h0n], by simp [h1], fun c hc h => ⟨rfl, all_signal r hm hl hs' c hc h⟩, by simp⟩) (by
        intro g' s W log v v' hlog hv hob _ t
        have kn := s.res.kindNew 0 _ rfl
        rw [Nat.add_zero] at kn
        have q := rhs_of_obeys (hob 0 (by simp)) (by rw [Nat.add_zero, Live, kn]; trivial) t
        rw [Nat.add_zero] at q
        rw [q]
        simp only [rhs, kn, hk, h0n]
        have := operand_nil (W := W) (log := log) (v := v) (k := k) (t := t)
        rw [operand, if_neg (by simp [hasSignal])] at this
        exact this.symm)
      refine ⟨g', _, run_var hk (xs := [.varK k]) (us := g.moveList o n) ?_ ?_ e2, e3⟩
      · simp [Graph.reduceVar, h0', hs']
      · rw [← e1, moveList_one (by rw [hk]; rfl)]; simp [h1, toIn]
    · have h0c : fmt (g.ins o 0) = 'c' := h0.resolve_left h0'
      obtain ⟨g1, g', e1, e2, e3⟩ := plain_done (μ := μ) r hm hl [.varS k, .varRead n] n 0 n 1 (n + 1) [] [] (by simp) (by simp)
        (by simp) (by simp) (by simp [h0c]) (by simp [h1, fmt]) (by
          intro i y hy
          match i, hy with
          | 0, hy => simp at hy; subst hy; simp [Kind.lang]
          | 1, hy => simp at hy; subst hy; simp [Kind.lang]) (fun h => absurd h (not_quiet_out hs')) (fun τ hτ => ⟨by simp [Kind.made], .varS k, .varS k, .varRead n, by simp, by simp, by simp, fun c hc => ⟨rfl, (fmt_c h0c).2 c hc⟩, by simp [h1], fun c hc h => ⟨rfl, all_signal r hm hl hs' c hc h⟩, by simp⟩) (by
        intro g' s W log v v' hlog hv hob _ t
        have kn := s.res.kindNew 0 _ rfl
        have kn1 := s.res.kindNew 1 _ rfl
        rw [Nat.add_zero] at kn
        have q := rhs_of_obeys (hob 1 (by simp)) (by rw [Live, kn1]; exact ⟨_, kn⟩) t
        rw [q]
        simp only [rhs, kn1, kn, hk]
        congr 1
        rw [received_perm (s.ins_new (Nat.le_refl n) 0)]
        simp only [and_self, if_true, Nat.one_ne_zero, and_false, if_false, List.append_nil, List.filter_nil, received_toward]
        exact received_old s hlog (mem_in r) t)
      refine ⟨g', _, run_var hk (xs := [.varS k, .varRead n]) (us := toIn (g.ins o 0) n 0 ++ fromOut (g.outs o 0) (n + 1)) ?_ ?_ e2, e3⟩
      · simp [Graph.reduceVar, h0c, hs']
      · rw [← e1]; simp [h1, toIn]
  · have hs2 : fmt (g.outs o 0) = 'c' ∨ fmt (g.outs o 0) = '_' := by
      rcases hs with h | h | h
      · exact .inr h
      · exact .inl h
      · exact absurd h hs'
    obtain ⟨g1, g', e1, e2, e3⟩ := plain_done (μ := μ) r hm hl [.varC k] n 0 n 1 n [] [] (by simp) (by simp) (by simp) (by simp)
      (by simp) (by simp) (by
        intro i y hy
        match i, hy with
        | 0, hy => simp at hy; subst hy; simp [Kind.lang]) (by
      intro _
      exact ⟨.varC k, by simp, by rw [hk]; exact rfl, rfl, rfl, rfl, rfl⟩) (fun τ hτ => ⟨by simp [Kind.made], .varC k, .varC k, .varC k, by simp, by simp, by simp, fun c hc => ⟨rfl, h0.elim (fun h => by rw [fmt_nil.1 h] at hc; simp at hc) fun h => (fmt_c h).2 c hc⟩, by simp [h1], fun c hc h => ⟨rfl, all_control r hm hl hs2 c hc h⟩, by simp⟩) (by
      intro g' s W log v v' _ _ _ h
      exact absurd h (no_signal r hm hl hs2))
    refine ⟨g', _, run_var hk (xs := [.varC k]) (us := g.moveList o n) ?_ ?_ e2, e3⟩
    · rcases h0 with h | h <;> rcases hs2 with h' | h' <;> simp [Graph.reduceVar, h, h']
    · rw [← e1, moveList_one (by rw [hk]; rfl)]; simp [h1, toIn]

/-- one object -/
theorem done_lang (r : ReadyT T g n M) (hm : o ∈ g.ids) (hl : (g.kind o).lang) : Goal T μ g n o := by
  cases hk : g.kind o with
  | binop op k => exact done_binop r hm hk
  | unop op => exact done_unop r hm hk
  | var k => exact done_var r hm hk
  | _ => rw [hk] at hl; simp [Kind.lang] at hl

theorem skip_other (hl : (g.kind o).lang = false) : g.reduceObj n o = some (g, n) := by
  unfold Graph.reduceObj
  cases hk : g.kind o <;> first | rfl | (rw [hk] at hl; simp [Kind.lang] at hl)

/-- the loop -/
theorem reduceObjs_ok (os : List Nat) : ∀ (g : Graph α) (n : Nat) (M : Multiset Conn), ReadyT T g n M → os.Nodup →
    (∀ p ∈ os, p ∈ g.ids) → ∃ g' n' M' ρ δ, g.reduceObjs n os = some (g', n') ∧ ReadyT T g' n' M' ∧
      (∀ p ∈ g'.ids, (g'.kind p).lang → p ∈ g.ids ∧ p ∉ os) ∧ ∀ W : World α μ, Sim W g g' n n' ρ δ := by
  induction os with
  | nil => intro g n M r _ _; exact ⟨g, n, M, id, some, rfl, r, fun p hp _ => ⟨hp, by simp⟩, fun W => .refl⟩
  | cons o os ih =>
    intro g n M r hnd hsub
    rw [List.nodup_cons] at hnd
    cases hl : (g.kind o).lang with
    | false =>
      obtain ⟨g', n', M', ρ, δ, e1, e2, e3, e4⟩ := ih g n M r hnd.2 (fun p hp => hsub p (by simp [hp]))
      refine ⟨g', n', M', ρ, δ, ?_, e2, fun p hp hpl => ?_, e4⟩
      · simp [Graph.reduceObjs, skip_other hl, e1]
      · obtain ⟨h1, h2⟩ := e3 p hp hpl
        refine ⟨h1, ?_⟩
        rw [List.mem_cons, not_or]
        refine ⟨?_, h2⟩
        rintro rfl
        have W : World α μ := ⟨fun _ a _ => a, fun _ a => a, fun _ => none, fun _ _ _ _ _ => 0, fun _ _ => false, 1⟩
        have := ((e4 W).keep p h1 hl).2.1
        rw [this, hl] at hpl
        simp at hpl
    | true =>
      obtain ⟨g1, n1, f1, M1, ρ1, δ1, f2, f3, f4, f5⟩ := done_lang (μ := μ) r (hsub o (by simp)) hl
      obtain ⟨g', n', M', ρ, δ, e1, e2, e3, e4⟩ := ih g1 n1 M1 f2 hnd.2 (fun p hp =>
        (f4 p (hsub p (by simp [hp])) (fun h => hnd.1 (h ▸ hp))).1)
      refine ⟨g', n', M', ρ ∘ ρ1, fun c => (δ1 c).bind δ, ?_, e2, fun p hp hpl => ?_, fun W => (f5 W).trans r f2 (e4 W)⟩
      · simp [Graph.reduceObjs, f1, e1]
      · obtain ⟨h1, h2⟩ := e3 p hp hpl
        have W : World α μ := ⟨fun _ a _ => a, fun _ a => a, fun _ => none, fun _ _ _ _ _ => 0, fun _ _ => false, 1⟩
        cases hp1 : (g1.kind p).lang with
        | false =>
          have := ((e4 W).keep p h1 hp1).2.1
          rw [this, hp1] at hpl
          simp at hpl
        | true =>
          obtain ⟨h3, h4⟩ := f3 p h1 hp1
          exact ⟨h3, by rw [List.mem_cons, not_or]; exact ⟨h4, h2⟩⟩

end

end Verif.Reduce
