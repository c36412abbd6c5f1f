import Verif.LibRun
/-!
The hypotheses of `control_correct` (C45) for a patch given as a list, as a check that can be computed, and what follows: what is
proved about the patch holds for its generated code.
-/
set_option linter.unusedTactic false
set_option linter.unreachableTactic false
set_option linter.unnecessarySeqFocus false
namespace Verif.Lib
open Verif.Control (Dest Kind Cast Patch Act Sys Env Big WF FireOrder Src sendAll execAct)

/-- kinds and connections -/
abbrev Shape := List (Kind × List (List Dest))

def shapeOf (l : List Node) : Shape := l.map fun n => (n.kind, n.outs)

/-- outlets that an object of a class needs -/
def Cls.outlets : Cls → Nat
  | .none => 0
  | .var _ => 1
  | .ite _ => 2
  | .bin _ _ => 1
  | .bink _ _ => 1
  | .un _ => 1
  | .fn _ => 1
  | .pow _ => 1
  | .powk _ => 1
  | .switch cs => cs.length + 1
  | .slice _ _ => 2
  | .pack _ => 1
  | .msg _ => 1
  | .tabread _ => 1
  | .tabwrite _ => 0
  | .system => 1
  | .delay _ => 1
  | .print => 0
  | .probe _ => 0

def kindOf (sh : Shape) (o : Nat) : Kind := (sh[o]?.map (·.1)).getD .inlet
def outsOf (sh : Shape) (o : Nat) : List (List Dest) := (sh[o]?.map (·.2)).getD []

def isSeq : Kind → Bool
  | .seq _ => true
  | _ => false

def isGraph : Kind → Bool
  | .graph _ => true
  | _ => false

/-- one connection -/
def destOK (sh : Shape) (d : Dest) : Bool :=
  decide (d.1 < sh.length) && (!isSeq (kindOf sh d.1) || decide (d.2 = 0)) && !decide (kindOf sh d.1 = .recv)

/-- one object -/
def nodeOK (sh : Shape) (rank : List Nat) (o : Nat) (x : Kind × List (List Dest)) : Bool :=
  x.2.all (fun ds => ds.all fun d => destOK sh d &&
    (!(isSeq x.1 && isSeq (kindOf sh d.1)) || decide (rank.getD d.1 0 < rank.getD o 0))) &&
  match x.1 with
  | .graph ins => ins.all fun i => decide (i < sh.length ∧ kindOf sh i = .inlet)
  | .outlet g _ => decide (g < sh.length) && isGraph (kindOf sh g)
  | _ => true

/-- one name -/
def nameOK (sh : Shape) (rec : List (List Nat)) (prio : Nat → Int) (ord : List Nat) (nm : Nat) (rs : List Nat) : Bool :=
  rs.all (fun r => decide (r < sh.length ∧ kindOf sh r = .recv)) &&
  (List.range rec.length).all (fun nm' => decide (nm' = nm) || rs.all fun r => !decide (r ∈ rec.getD nm' [])) &&
  ord.isPerm rs && decide (ord.Pairwise fun a b => prio b ≤ prio a) &&
  (rs.map prio).all fun x => decide (ord.filter (fun r => prio r = x) = rs.filter fun r => prio r = x)

/-- the whole patch; `rec`, `ord`: receivers of each name, as registered and as they fire -/
def check (sh : Shape) (rec ord : List (List Nat)) (prio : Nat → Int) (rank : List Nat) : Bool :=
  (List.range sh.length).all (fun o => nodeOK sh rank o (kindOf sh o, outsOf sh o)) &&
  (List.range rec.length).all (fun nm => nameOK sh rec prio (ord.getD nm []) nm (rec.getD nm [])) &&
  decide (ord.length = rec.length)

/-- the classes fit the outlets -/
def clsOK (l : List Node) : Bool := l.all fun n =>
  match n.kind with
  | .obj => decide (n.cls.outlets ≤ n.outs.length)
  | _ => match n.cls with
    | .delay _ => false
    | _ => true

variable {l : List Node} {rec ord : List (List Nat)} {prio : Nat → Int} {rank : List Nat}

theorem kind_shape (l : List Node) (recvs : Nat → List Nat) (prio : Nat → Int) (o : Nat) :
    (mkPatch l recvs prio).kind o = kindOf (shapeOf l) o := by
  simp only [mkPatch, kindOf, shapeOf, List.getElem?_map]
  cases l[o]? <;> rfl

theorem outs_shape (l : List Node) (recvs : Nat → List Nat) (prio : Nat → Int) (o : Nat) :
    (mkPatch l recvs prio).outs o = outsOf (shapeOf l) o := by
  simp only [mkPatch, outsOf, shapeOf, List.getElem?_map]
  cases l[o]? <;> rfl

theorem shape_length (l : List Node) : (shapeOf l).length = l.length := by simp [shapeOf]

theorem outs_out {sh : Shape} {o : Nat} (h : sh.length ≤ o) : outsOf sh o = [] := by
  simp [outsOf, List.getElem?_eq_none h]

theorem kind_out {sh : Shape} {o : Nat} (h : sh.length ≤ o) : kindOf sh o = .inlet := by
  simp [kindOf, List.getElem?_eq_none h]

theorem isSeq_iff {k : Kind} : isSeq k = true ↔ ∃ cs, k = .seq cs := by cases k <;> simp [isSeq]

/-- receivers by name -/
def recvsOf (rec : List (List Nat)) (nm : Nat) : List Nat := rec.getD nm []

theorem recvsOf_mem {nm r : Nat} (h : r ∈ recvsOf rec nm) : nm < rec.length := by
  by_contra hn
  rw [recvsOf, List.getD_eq_getElem?_getD, List.getElem?_eq_none (by omega)] at h
  simp at h

theorem check_node (h : check (shapeOf l) rec ord prio rank = true) {o : Nat} (ho : o < l.length) :
    nodeOK (shapeOf l) rank o (kindOf (shapeOf l) o, outsOf (shapeOf l) o) = true := by
  simp only [check, Bool.and_eq_true, List.all_eq_true, List.mem_range, shape_length] at h
  exact h.1.1 o ho

theorem check_name (h : check (shapeOf l) rec ord prio rank = true) {nm : Nat} (ho : nm < rec.length) :
    nameOK (shapeOf l) rec prio (recvsOf ord nm) nm (recvsOf rec nm) = true := by
  simp only [check, Bool.and_eq_true, List.all_eq_true, List.mem_range, shape_length] at h
  exact h.1.2 nm ho

theorem wf_of_check (h : check (shapeOf l) rec ord prio rank = true) : WF (mkPatch l (recvsOf rec) prio) l.length where
  dest o ds hds d hd := by
    rw [outs_shape] at hds
    by_cases ho : o < l.length
    · have := check_node h ho
      simp only [nodeOK, Bool.and_eq_true, List.all_eq_true] at this
      have h2 := (this.1 ds hds d hd).1
      simp only [destOK, Bool.and_eq_true, decide_eq_true_eq, shape_length] at h2
      refine ⟨h2.1.1, fun cs hc => ?_, ?_⟩
      · rw [kind_shape] at hc
        have h3 := h2.1.2
        rw [hc] at h3
        simpa [isSeq] using h3
      · rw [kind_shape]
        simpa using h2.2
    · rw [outs_out (by rw [shape_length]; omega)] at hds
      simp at hds
  graph o ins hk i hi := by
    rw [kind_shape] at hk
    by_cases ho : o < l.length
    · have := check_node h ho
      simp only [nodeOK, hk, Bool.and_eq_true, List.all_eq_true, decide_eq_true_eq, shape_length] at this
      rw [kind_shape]
      exact this.2 i hi
    · rw [kind_out (by rw [shape_length]; omega)] at hk
      simp at hk
  outlet o g k hk := by
    rw [kind_shape] at hk
    by_cases ho : o < l.length
    · have := check_node h ho
      simp only [nodeOK, hk, Bool.and_eq_true, decide_eq_true_eq, shape_length] at this
      rw [kind_shape]
      refine ⟨this.2.1, ?_⟩
      have h3 := this.2.2
      cases hg : kindOf (shapeOf l) g <;> rw [hg] at h3 <;> simp [isGraph] at h3 ⊢
    · rw [kind_out (by rw [shape_length]; omega)] at hk
      simp at hk
  recv nm r hr := by
    have := check_name h (recvsOf_mem hr)
    simp only [nameOK, Bool.and_eq_true, List.all_eq_true, decide_eq_true_eq, shape_length] at this
    rw [kind_shape]
    exact this.1.1.1.1 r hr
  disjoint a b r ha hb := by
    have := check_name h (recvsOf_mem ha)
    simp only [nameOK, Bool.and_eq_true, List.all_eq_true, decide_eq_true_eq, shape_length, List.mem_range, Bool.or_eq_true] at this
    rcases this.1.1.1.2 b (recvsOf_mem hb) with e | e
    · exact e.symm
    · have := e r ha
      have this : r ∉ recvsOf rec b := by
        intro h4
        have h5 : r ∈ rec.getD b [] := h4
        rw [decide_eq_true h5] at this
        simp at this
      exact absurd hb this
  acyclic := ⟨fun o => rank.getD o 0, fun s cs hk ds hds d hd cs' hk' => by
    rw [kind_shape] at hk hk'
    rw [outs_shape] at hds
    by_cases ho : s < l.length
    · have := check_node h ho
      simp only [nodeOK, Bool.and_eq_true, List.all_eq_true] at this
      have h2 := (this.1 ds hds d hd).2
      rw [hk, hk'] at h2
      simpa [isSeq] using h2
    · rw [kind_out (by rw [shape_length]; omega)] at hk
      simp at hk⟩

theorem order_of_check (h : check (shapeOf l) rec ord prio rank = true) (nm : Nat) :
    FireOrder (mkPatch l (recvsOf rec) prio) nm (recvsOf ord nm) := by
  by_cases hn : nm < rec.length
  · have := check_name h hn
    simp only [nameOK, Bool.and_eq_true, List.all_eq_true, decide_eq_true_eq, List.isPerm_iff] at this
    refine ⟨this.1.1.2, this.1.2, fun x => ?_⟩
    have hp : (recvsOf ord nm).Perm (recvsOf rec nm) := this.1.1.2
    by_cases hx : x ∈ (recvsOf rec nm).map prio
    · exact this.2 x hx
    · have hx : ∀ r ∈ recvsOf rec nm, prio r ≠ x := fun r hr e => hx (List.mem_map.mpr ⟨r, hr, e⟩)
      rw [List.filter_eq_nil_iff.mpr fun r hr => by rw [decide_eq_true_eq]; exact hx r (hp.mem_iff.mp hr)]
      exact (List.filter_eq_nil_iff.mpr fun r hr => by rw [decide_eq_true_eq]; exact hx r hr).symm
  · have e : ord.length = rec.length := by
      simp only [check, Bool.and_eq_true, decide_eq_true_eq] at h
      exact h.2
    have h1 : recvsOf rec nm = [] := by
      rw [recvsOf, List.getD_eq_getElem?_getD, List.getElem?_eq_none (by omega)]; rfl
    have h2 : recvsOf ord nm = [] := by
      rw [recvsOf, List.getD_eq_getElem?_getD, List.getElem?_eq_none (by omega)]; rfl
    rw [h2]
    exact ⟨by rw [show (mkPatch l (recvsOf rec) prio).recvs nm = [] from h1], .nil,
      fun x => by rw [show (mkPatch l (recvsOf rec) prio).recvs nm = [] from h1]⟩

/-! ## objects use their outlets -/

theorem step_outlet {c : Ctx} {k : Cls} {o i : Nat} {m : Msg} {s : St} {j : Nat} {m' : Msg}
    (h : (step c k o i m s).2 = some (j, m')) : j < k.outlets := by
  cases k with
  | none => simp [step] at h
  | var a =>
    simp only [step, varStep] at h
    split at h <;> simp at h <;> simp [Cls.outlets, ← h.1]
  | ite q =>
    simp only [step, iteStep] at h
    split at h <;> simp at h
    rw [← h.1]
    simp only [Cls.outlets]
    split <;> omega
  | bin op q =>
    simp only [step, binStep] at h
    split at h <;> simp at h <;> simp [Cls.outlets, ← h.1]
  | bink op q =>
    simp only [step, binkStep] at h
    split at h <;> simp at h <;> simp [Cls.outlets, ← h.1]
  | un op =>
    simp only [step, unStep] at h
    split at h <;> simp at h <;> simp [Cls.outlets, ← h.1]
  | fn f =>
    simp only [step, fnStep] at h
    split at h <;> simp at h <;> simp [Cls.outlets, ← h.1]
  | pow q =>
    simp only [step, powStep] at h
    split at h <;> simp at h <;> simp [Cls.outlets, ← h.1]
  | powk q =>
    simp only [step, powkStep] at h
    split at h <;> simp at h <;> simp [Cls.outlets, ← h.1]
  | switch cs =>
    simp only [step, switchStep, Option.some.injEq, Prod.mk.injEq] at h
    rw [← h.1, Cls.outlets]
    exact Nat.lt_succ_of_le List.findIdx_le_length
  | slice a n =>
    simp only [step, sliceStep, Option.some.injEq] at h
    simp only [Cls.outlets]
    split at h <;> simp at h <;> omega
  | pack q =>
    simp only [step, packStep] at h
    split at h <;> simp at h <;> simp [Cls.outlets, ← h.1]
  | msg q =>
    simp only [step, Option.some.injEq, Prod.mk.injEq] at h
    simp [Cls.outlets, ← h.1]
  | tabread t =>
    simp only [step, tabreadStep] at h
    split at h
    · split at h
      · split at h <;> simp at h <;> simp [Cls.outlets, ← h.1]
      · simp at h
    · simp at h
  | tabwrite t =>
    simp only [step, tabwriteStep] at h
    split at h
    · simp at h
    · split at h <;> simp at h
    · simp at h
  | system =>
    simp only [step, systemStep] at h
    split at h
    · simp at h; simp [Cls.outlets, ← h.1]
    · simp at h; simp [Cls.outlets, ← h.1]
    · split at h <;> simp at h
      simp [Cls.outlets, ← h.1]
    · split at h <;> simp at h
      simp [Cls.outlets, ← h.1]
    · simp at h
  | delay q =>
    simp only [step, delayStep] at h
    split at h <;> try (simp at h)
    split at h <;> simp at h
  | print => simp [step] at h
  | probe q => simp [step] at h

theorem beh_uses {c : Ctx} {k : Cls} {o i : Nat} {m : Msg} {n : Nat} (h : k.outlets ≤ n) : (beh c k o i m).Uses (· < n) := by
  refine .get fun s => .set ?_
  cases hr : (step c k o i m s).2 with
  | none => exact .done
  | some r => exact .send (Nat.lt_of_lt_of_le (step_outlet (j := r.1) (m' := r.2) hr) h) .done

/-! ## the queue has messages of `__delay` objects -/

theorem mem_insert {p x : Pend} {q : List Pend} (h : x ∈ insert p q) : x = p ∨ x ∈ q := by
  simp only [insert, List.mem_append, List.mem_cons] at h
  rcases h with h | h | h
  · exact Or.inr (List.takeWhile_subset _ h)
  · exact Or.inl h
  · exact Or.inr (List.dropWhile_subset _ h)

def isDelay : Cls → Bool
  | .delay _ => true
  | _ => false

/-- everything in the queue was put there by a `__delay` object -/
def GoodQ (l : List Node) (s : St) : Prop := ∀ p ∈ s.q, isDelay (clsOf l p.obj) = true

theorem goodQ_step {c : Ctx} {l : List Node} {o i : Nat} {m : Msg} {s : St} (h : GoodQ l s) :
    GoodQ l (step c (clsOf l o) o i m s).1 := by
  have key : ∀ k, clsOf l o = k → GoodQ l (step c k o i m s).1 := by
    intro k hk
    have hs : ∀ o v, GoodQ l (s.set o v) := fun o v => h
    cases k with
    | none => exact h
    | var a => simp only [step, varStep]; split <;> first | exact h | exact hs _ _
    | ite a => simp only [step, iteStep]; split <;> first | exact h | exact hs _ _
    | bin op a => simp only [step, binStep]; split <;> first | exact h | exact hs _ _
    | bink op a => simp only [step, binkStep]; split <;> first | exact h | exact hs _ _
    | un op => simp only [step, unStep]; split <;> first | exact h | exact hs _ _
    | fn f => simp only [step, fnStep]; split <;> first | exact h | exact hs _ _
    | pow a => simp only [step, powStep]; split <;> first | exact h | exact hs _ _
    | powk a => simp only [step, powkStep]; split <;> first | exact h | exact hs _ _
    | switch cs => exact h
    | slice a n => exact h
    | pack a => simp only [step, packStep]; split <;> first | exact h | exact hs _ _
    | msg a => exact h
    | tabread t => simp only [step, tabreadStep]; repeat' split <;> try exact h
    | tabwrite t =>
      simp only [step, tabwriteStep]
      split
      · exact h
      · split
        · exact hs _ _
        · exact h
      · exact h
    | system => simp only [step, systemStep]; repeat' split <;> try exact h
    | delay a =>
      simp only [step, delayStep]
      split
      · exact fun p hp => h p (List.mem_filter.mp hp).1
      · exact h
      · split
        · intro p hp
          rcases mem_insert hp with rfl | hp
          · simp only; rw [hk]; rfl
          · exact h p hp
        · exact h
      · exact hs _ _
      · exact hs _ _
      · exact h
    | print => exact h
    | probe a => exact h
  exact key _ rfl

theorem sendAll_inv {P : St → Prop} {f : Dest × Msg → St → Option (St × List (Dest × Msg))}
    (hf : ∀ x s r, f x s = some r → P s → P r.1) (l : List (Dest × Msg)) (s : St) (r : St × List (Dest × Msg))
    (h : sendAll f l s = some r) (hs : P s) : P r.1 := by
  induction l generalizing s r with
  | nil =>
    simp only [sendAll, Option.some.injEq] at h
    rw [← h]; exact hs
  | cons x xs ih =>
    simp only [sendAll] at h
    cases h1 : f x s with
    | none => rw [h1] at h; simp at h
    | some r1 =>
      rw [h1] at h
      simp only at h
      cases h2 : sendAll f xs r1.1 with
      | none => rw [h2] at h; simp at h
      | some r2 =>
        rw [h2] at h
        simp only [Option.some.injEq] at h
        rw [← h]
        exact ih r1.1 r2 h2 (hf x s r1 h1 hs)

theorem deliver_inv {P : St → Prop} {p : Patch} {order : Nat → List Nat} {c : Ctx} {cls : Nat → Cls}
    (hstep : ∀ o i m s, P s → P (step c (cls o) o i m s).1) (n : Nat) (x : Dest × Msg) (s : St) (r : St × List (Dest × Msg))
    (h : (p.means order (env c cls)).deliver n x s = some r) (hs : P s) : P r.1 := by
  induction n generalizing x s r with
  | zero => simp [Sys.deliver] at h
  | succ n ih =>
    simp only [Sys.deliver] at h
    cases hn : (p.means order (env c cls)).node x.1 x.2 with
    | fwd v l =>
      rw [hn] at h
      simp only [Option.map_eq_some_iff] at h
      obtain ⟨r1, h1, rfl⟩ := h
      exact sendAll_inv ih l s r1 h1 hs
    | obj a =>
      have ha : a = beh c (cls x.1.1) x.1.1 x.1.2 x.2 := by
        simp only [Patch.means] at hn
        split at hn
        · simpa [env, eq_comm] using hn
        · simp at hn
        · split at hn <;> simp at hn
        · split at hn <;> simp at hn
        · simp at hn
        · simp at hn
        · simp at hn
      rw [hn, ha] at h
      simp only [Option.map_eq_some_iff] at h
      obtain ⟨r1, h1, rfl⟩ := h
      simp only [beh, execAct] at h1
      have h2 := hstep x.1.1 x.1.2 x.2 s hs
      cases hr : (step c (cls x.1.1) x.1.1 x.1.2 x.2 s).2 with
      | none =>
        rw [hr] at h1
        simp only [execAct, Option.some.injEq] at h1
        rw [← h1]; exact h2
      | some y =>
        rw [hr] at h1
        simp only [execAct] at h1
        cases h3 : sendAll ((p.means order (env c cls)).deliver n)
            (((p.means order (env c cls)).out x.1.1 y.1).map (·, y.2)) (step c (cls x.1.1) x.1.1 x.1.2 x.2 s).1 with
        | none => rw [h3] at h1; simp at h1
        | some r3 =>
          rw [h3] at h1
          simp only [Option.some.injEq] at h1
          rw [← h1]
          exact sendAll_inv ih _ _ r3 h3 h2

theorem ends_goodQ {c : Ctx} {l : List Node} {recvs : Nat → List Nat} {prio : Nat → Int} {order : Nat → List Nat} {cs : Calls}
    {s s' : St} (h : Ends (source c l recvs prio order).sys cs s s') (hs : GoodQ l s) : GoodQ l s' := by
  obtain ⟨t, h⟩ := h
  obtain ⟨d, hd⟩ := Control.big_all_iff.mp h
  exact sendAll_inv (P := GoodQ l) (fun x s r h1 h2 => deliver_inv (fun _ _ _ _ => goodQ_step) d x s r h1 h2) cs s _ hd hs

/-! ## generated code -/

theorem ends_code {c : Ctx} {M : Mach} (hk : check (shapeOf l) rec ord prio rank = true) (hc : clsOK l = true)
    (hM : Compiled c l (recvsOf rec) prio M) (x : Src Msg) (hx : x.Valid (mkPatch l (recvsOf rec) prio) l.length) (s s' : St) :
    Ends M.sys (M.call x) s s' ↔
      Ends (source c l (recvsOf rec) prio (recvsOf ord)).sys ((source c l (recvsOf rec) prio (recvsOf ord)).call x) s s' := by
  obtain ⟨os, names, f, q, ir, h1, h2, h3, rfl⟩ := hM
  refine exists_congr fun t => ?_
  have := Control.control_correct (mkPatch l (recvsOf rec) prio) l.length os names f q ir h1 (wf_of_check hk) h2 h3 (recvsOf ord)
    (order_of_check hk) (env c (clsOf l)) (fun o i m ho => ?_) [x] (by simpa using hx) s s' t
  · simp only [List.flatMap_cons, List.flatMap_nil, List.append_nil] at this
    rw [Control.big_all_iff, Control.big_all_iff]
    exact this.symm
  · refine beh_uses ?_
    rw [clsOK, List.all_eq_true] at hc
    simp only [mkPatch, clsOf] at ho ⊢
    cases hl : l[o]? with
    | none => rw [hl] at ho; simp at ho
    | some nd =>
      have := hc nd (List.mem_of_getElem? hl)
      rw [hl] at ho
      simp only [Option.map_some, Option.getD_some] at ho ⊢
      rw [ho] at this
      simpa using this

theorem delay_valid (hc : clsOK l = true) {recvs : Nat → List Nat} {o : Nat} {m : Msg} (h : isDelay (clsOf l o) = true) :
    (Src.outlet o 0 m).Valid (mkPatch l recvs prio) l.length := by
  rw [clsOK, List.all_eq_true] at hc
  simp only [clsOf] at h
  cases hl : l[o]? with
  | none => rw [hl] at h; simp [isDelay] at h
  | some nd =>
    have := hc nd (List.mem_of_getElem? hl)
    rw [hl] at h
    simp only [Option.map_some, Option.getD_some] at h
    have ho : o < l.length := (List.getElem?_eq_some_iff.mp hl).1
    simp only [Control.Src.Valid, mkPatch, hl, Option.map_some, Option.getD_some]
    cases hcl : nd.cls <;> rw [hcl] at h <;> simp [isDelay] at h
    rw [hcl] at this
    cases hkd : nd.kind <;> rw [hkd] at this <;> simp at this
    exact ⟨ho, rfl, by simp only [Cls.outlets] at this; omega⟩

theorem happens_goodQ {c : Ctx} {recvs : Nat → List Nat} {order : Nat → List Nat} {drv : Nat → Nat} {e : Ev} {s s' : St}
    (h : Happens (source c l recvs prio order) drv e s s') (hq : GoodQ l s) : GoodQ l s' := by
  cases h with
  | ext h1 h2 h3 => exact ends_goodQ ⟨_, h3⟩ hq
  | tick h1 h3 =>
    refine ends_goodQ ⟨_, h3⟩ fun p hp => hq p ?_
    rw [h1]; exact List.mem_cons_of_mem _ hp

/-- the object that sends the message to an inlet is an object of the patch -/
def Driven (l : List Node) (recvs : Nat → List Nat) (prio : Nat → Int) (drv : Nat → Nat) : Ev → Prop
  | .ext _ i _ => ∀ m : Msg, (Src.outlet (drv i) 0 m).Valid (mkPatch l recvs prio) l.length
  | .tick => True

theorem happens_code {c : Ctx} {M : Mach} {drv : Nat → Nat} (hk : check (shapeOf l) rec ord prio rank = true) (hc : clsOK l = true)
    (hM : Compiled c l (recvsOf rec) prio M) {e : Ev} (hd : Driven l (recvsOf rec) prio drv e) {s s' : St} (hq : GoodQ l s) :
    Happens M drv e s s' ↔ Happens (source c l (recvsOf rec) prio (recvsOf ord)) drv e s s' := by
  constructor
  · intro h
    cases h with
    | @ext t i m _ _ tr h1 h2 h3 =>
      obtain ⟨tr', h4⟩ := (ends_code hk hc hM _ (hd m) _ _).mp ⟨_, h3⟩
      exact .ext h1 h2 h4
    | @tick p q _ _ tr h1 h3 =>
      obtain ⟨tr', h4⟩ := (ends_code hk hc hM _ (delay_valid hc (hq p (by rw [h1]; simp))) _ _).mp ⟨_, h3⟩
      exact .tick h1 h4
  · intro h
    cases h with
    | @ext t i m _ _ tr h1 h2 h3 =>
      obtain ⟨tr', h4⟩ := (ends_code hk hc hM _ (hd m) _ _).mpr ⟨_, h3⟩
      exact .ext h1 h2 h4
    | @tick p q _ _ tr h1 h3 =>
      obtain ⟨tr', h4⟩ := (ends_code hk hc hM _ (delay_valid hc (hq p (by rw [h1]; simp))) _ _).mpr ⟨_, h3⟩
      exact .tick h1 h4

/-- what is true of all histories of the patch is true of all histories of its generated code, and the other way round -/
theorem hist_code {c : Ctx} {M : Mach} {drv : Nat → Nat} (hk : check (shapeOf l) rec ord prio rank = true) (hc : clsOK l = true)
    (hM : Compiled c l (recvsOf rec) prio M) {es : List Ev} (hd : ∀ e ∈ es, Driven l (recvsOf rec) prio drv e) {s s' : St}
    (hq : GoodQ l s) : Hist M drv es s s' ↔ Hist (source c l (recvsOf rec) prio (recvsOf ord)) drv es s s' := by
  induction es generalizing s with
  | nil =>
    constructor
    · intro h; cases h; exact .nil
    · intro h; cases h; exact .nil
  | cons e es ih =>
    have ih := fun {s : St} (hq : GoodQ l s) => @ih (fun e h => hd e (List.mem_cons_of_mem _ h)) s hq
    have hstep := fun s1 => happens_code (s := s) (s' := s1) hk hc hM (hd e (List.mem_cons_self ..)) hq
    constructor
    · intro h
      cases h with
      | cons h1 h2 =>
        have h1 := (hstep _).mp h1
        exact .cons h1 ((ih (happens_goodQ h1 hq)).mp h2)
    · intro h
      cases h with
      | cons h1 h2 => exact .cons ((hstep _).mpr h1) ((ih (happens_goodQ h1 hq)).mpr h2)

theorem hist_goodQ {c : Ctx} {recvs : Nat → List Nat} {order : Nat → List Nat} {drv : Nat → Nat} {es : List Ev} {s s' : St}
    (h : Hist (source c l recvs prio order) drv es s s') (hq : GoodQ l s) : GoodQ l s' := by
  induction h with
  | nil => exact hq
  | cons h1 _ ih => exact ih (happens_goodQ h1 hq)

theorem goodQ_start {c : Ctx} (l : List Node) (tab : Nat → List ℚ) : GoodQ l (start c l tab) := fun p hp => by simp [start] at hp

theorem booted_code {c : Ctx} {M : Mach} (hk : check (shapeOf l) rec ord prio rank = true) (hc : clsOK l = true)
    (hM : Compiled c l (recvsOf rec) prio M) {s s' : St} :
    Booted M s s' ↔ Booted (source c l (recvsOf rec) prio (recvsOf ord)) s s' := ends_code hk hc hM (.name 0 [.bang]) trivial s s'

theorem runs_code {c : Ctx} {M : Mach} {drv : Nat → Nat} (hk : check (shapeOf l) rec ord prio rank = true) (hc : clsOK l = true)
    (hM : Compiled c l (recvsOf rec) prio M) {es : List Ev} (hd : ∀ e ∈ es, Driven l (recvsOf rec) prio drv e)
    {tab : Nat → List ℚ} {s : St} :
    Runs M drv (start c l tab) es s ↔ Runs (source c l (recvsOf rec) prio (recvsOf ord)) drv (start c l tab) es s := by
  constructor
  · rintro ⟨s0, h1, h2⟩
    have h1 := (booted_code hk hc hM).mp h1
    exact ⟨s0, h1, (hist_code hk hc hM hd (ends_goodQ h1 (goodQ_start _ _))).mp h2⟩
  · rintro ⟨s0, h1, h2⟩
    exact ⟨s0, (booted_code hk hc hM).mpr h1, (hist_code hk hc hM hd (ends_goodQ h1 (goodQ_start _ _))).mpr h2⟩

theorem runs_goodQ {c : Ctx} {recvs : Nat → List Nat} {order : Nat → List Nat} {drv : Nat → Nat} {es : List Ev}
    {tab : Nat → List ℚ} {s : St} (h : Runs (source c l recvs prio order) drv (start c l tab) es s) : GoodQ l s := by
  obtain ⟨s0, h1, h2⟩ := h
  exact hist_goodQ h2 (ends_goodQ h1 (goodQ_start _ _))

/-! ## it compiles -/

/-- `Patch.group` with a given firing order -/
def groupWith (order : Nat → List Nat) (p : Patch) (n : Nat) : List Nat → Patch × Nat
  | [] => (p, n)
  | nm :: ns =>
    if p.recvs nm = [] then groupWith order p n ns
    else groupWith order
      { kind := fun o => if o = n then .recv else p.kind o
        outs := fun o => if o = n then [(order nm).flatMap fun q => p.out q 0] else if o ∈ p.recvs nm then [] else p.outs o
        recvs := fun x => if x = nm then [n] else p.recvs x
        prio := p.prio } (n + 1) ns

theorem group_with (order : Nat → List Nat) (names : List Nat) (hn : names.Nodup) (p : Patch) (n : Nat)
    (ho : ∀ nm ∈ names, FireOrder p nm (order nm)) : p.group n names = groupWith order p n names := by
  induction names generalizing p n with
  | nil => rfl
  | cons nm ns ih =>
    simp only [Patch.group, groupWith]
    split
    · exact ih hn.of_cons p n fun x hx => ho x (List.mem_cons_of_mem _ hx)
    · have e : p.sorted nm = order nm := (Control.sorted_fireOrder p nm).unique (ho nm (List.mem_cons_self ..))
      rw [ih hn.of_cons _ _ fun x hx => ?_]
      · simp only [Patch.groupName, e]
      · have hne : x ≠ nm := fun h => (List.nodup_cons.mp hn).1 (h ▸ hx)
        have h := ho x (List.mem_cons_of_mem _ hx)
        exact ⟨by simp only [Patch.groupName, hne, if_false]; exact h.all, h.sorted,
          fun y => by simp only [Patch.groupName, hne, if_false]; exact h.stable y⟩

theorem reduceAll_recvs (p : Patch) (n : Nat) (os : List Nat) :
    (p.reduceAll n os).1.recvs = p.recvs ∧ (p.reduceAll n os).1.prio = p.prio := by
  induction os generalizing p n with
  | nil => exact ⟨rfl, rfl⟩
  | cons o os ih =>
    simp only [Patch.reduceAll]
    split
    · exact ih (p.reduceSeq o _ n) _
    · exact ih p n

/-- a patch without parameters -/
def shapePatch (sh : Shape) (rec : List (List Nat)) (prio : Nat → Int) : Patch where
  kind := kindOf sh
  outs := outsOf sh
  recvs := recvsOf rec
  prio := prio

theorem mkPatch_shape (l : List Node) (rec : List (List Nat)) (prio : Nat → Int) :
    mkPatch l (recvsOf rec) prio = shapePatch (shapeOf l) rec prio := by
  have h1 := kind_shape l (recvsOf rec) prio
  have h2 := outs_shape l (recvsOf rec) prio
  simp only [mkPatch, shapePatch] at h1 h2 ⊢
  rw [Patch.mk.injEq]
  exact ⟨funext h1, funext h2, rfl, rfl⟩

/-- the sequences -/
def seqs (sh : Shape) : List Nat := (List.range sh.length).filter fun o => isSeq (kindOf sh o)

/-- the check: recursion of depth `f` is enough -/
def compiles (sh : Shape) (rec ord : List (List Nat)) (prio : Nat → Int) (f : Nat) : Bool :=
  let r := (shapePatch sh rec prio).reduceAll sh.length (seqs sh)
  let q := groupWith (recvsOf ord) r.1 r.2 (List.range rec.length)
  (q.1.toIR f (List.range q.2)).isSome

theorem exists_compiled (c : Ctx) (hk : check (shapeOf l) rec ord prio rank = true) {f : Nat}
    (hf : compiles (shapeOf l) rec ord prio f = true) : ∃ M, Compiled c l (recvsOf rec) prio M := by
  have e : mkPatch l (recvsOf rec) prio = shapePatch (shapeOf l) rec prio := mkPatch_shape l rec prio
  obtain ⟨h1, h2⟩ := reduceAll_recvs (mkPatch l (recvsOf rec) prio) l.length (seqs (shapeOf l))
  have hg := group_with (recvsOf ord) (List.range rec.length) List.nodup_range
    ((mkPatch l (recvsOf rec) prio).reduceAll l.length (seqs (shapeOf l))).1
    ((mkPatch l (recvsOf rec) prio).reduceAll l.length (seqs (shapeOf l))).2 fun nm _ => by
      have h := order_of_check hk nm
      exact ⟨by rw [h1]; exact h.all, by rw [h2]; exact h.sorted, fun x => by rw [h1, h2]; exact h.stable x⟩
  have hs : ((mkPatch l (recvsOf rec) prio).compile l.length (seqs (shapeOf l)) (List.range rec.length) f).isSome = true := by
    simp only [Patch.compile, Option.isSome_map]
    rw [hg]
    simp only [compiles] at hf
    rw [e, ← shape_length l]
    exact hf
  obtain ⟨r, hr⟩ := Option.isSome_iff_exists.mp hs
  refine ⟨_, seqs (shapeOf l), List.range rec.length, f, r.1, r.2, hr, fun o => ?_, fun nm h => ?_, rfl⟩
  · simp only [seqs, List.mem_filter, List.mem_range, shape_length, isSeq_iff, kind_shape]
  · obtain ⟨x, hx⟩ := List.exists_mem_of_ne_nil _ h
    exact List.mem_range.mpr (recvsOf_mem hx)

end Verif.Lib
