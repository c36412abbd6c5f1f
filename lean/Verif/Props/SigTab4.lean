import Verif.Lib.Tabread4
import Verif.Lib.TabreadS
import Verif.Lib.Tabosc4
import Verif.Props.SigTab
import Verif.Props.SigVcf
/-!
# C78 (continued): `[tabread4~]` with its messages

Which table is read and how long it is taken to be, for every history of messages.
-/
namespace Verif.Lib
open Verif.Control (Dest Kind Cast Patch Act Sys Env Big)

/-! ### any of the readers -/
namespace TabSet
variable {a1 : String} {c : Ctx} {s : St}

/-- messages: `set` with the name of a table at the left inlet, or anything that is not a `set` -/
def Fits (c : Ctx) : Ev → Prop
  | .ext _ i m => i = 0 ∧ ((∃ n, m = [.sym "set", .sym n] ∧ (c.tabId n).isSome) ∨ (m ≠ [] ∧ key m ≠ .sym "set"))
  | .tick => False

/-- the name in a `set` message -/
def setName : Ev → Option String
  | .ext _ 0 [.sym "set", .sym n] => some n
  | _ => none

/-- the tables chosen by a history -/
def sets (es : List Ev) : List String := es.filterMap setName

/-- the table in use: the last one chosen, or the argument -/
def current (a1 : String) (es : List Ev) : String := (sets es).getLast?.getD a1

/-- the entries of a table by its name -/
def entries (c : Ctx) (tab : Nat → List ℚ) (n : String) : List ℚ := ((c.tabId n).map tab).getD []

/-- the messages for probe `k` -/
def sentTo (s : St) (k : Nat) : List Msg := (s.log.filter fun e => e.2.1 = k).map (·.2.2)

/-- what the objects keep after the tables `ns` were chosen: the name is kept by the object `o`; the limit, the size less `d`, was sent to
probe `p`; the names were sent to the probes `rd` -/
structure Mem (o p : Nat) (rd : List Nat) (d : ℚ) (c : Ctx) (a1 : String) (tab : Nat → List ℚ) (ns : List String) (s : St) : Prop where
  var : s.mem o = [.sym (ns.getLast?.getD a1)]
  tabs : s.tab = tab
  queue : s.q = []
  size : lastSent s.log p = some (((roundUp c.simd (entries c tab (ns.getLast?.getD a1)).length : ℕ) : ℚ) - d)
  read : ∀ k ∈ rd, sentTo s k = ns.map fun n => [.sym n]

/-- as a state -/
def onSet (ns : List String) (e : Ev) : List String := ns ++ (setName e).toList

theorem onSet_fold (ns : List String) (es : List Ev) : es.foldl onSet ns = ns ++ sets es := by
  induction es generalizing ns with
  | nil => simp [sets]
  | cons e es ih =>
    rw [List.foldl_cons, ih, onSet, sets, sets, List.append_assoc, List.filterMap_cons]
    cases setName e <;> simp

theorem step_size {n : String} {k : Nat} (hc : c.tabId n = some k) {o i : Nat} :
    step c .system o i [.sym "table", .sym n, .sym "size"] s = (s, some (0, [.float (roundUp c.simd (s.tab k).length : ℕ)])) := by
  simp [step, systemStep, hc]

theorem setName_other {t : Nat} {m : Msg} (hk : key m ≠ .sym "set") : setName (.ext t 0 m) = none := by
  unfold setName
  split
  · next he =>
    cases he
    simp [key] at hk
  · rfl

theorem simulates_of {M : Mach} {drv : Nat → Nat} {st : St} {o p : Nat} {rd : List Nat} {d : ℚ} {tab : Nat → List ℚ}
    (boot : ∃ s, Booted M st s ∧ Mem o p rd d c a1 tab [] s)
    (run_set : ∀ {s ns t n k}, Mem o p rd d c a1 tab ns s → c.tabId n = some k →
      ∃ s', Ends M.sys (M.call (.outlet (drv 0) 0 [.sym "set", .sym n])) { s with now := t } s' ∧ Mem o p rd d c a1 tab (ns ++ [n]) s')
    (run_other : ∀ {s ns t m}, Mem o p rd d c a1 tab ns s → m ≠ [] → key m ≠ .sym "set" →
      ∃ s', Ends M.sys (M.call (.outlet (drv 0) 0 m)) { s with now := t } s' ∧ Mem o p rd d c a1 tab ns s') :
    Simulates M drv st (Fits c) onSet [] (Mem o p rd d c a1 tab) where
  boot := boot
  step {x s e} hs hf hcan := by
    match e, hf with
    | .ext t i m, ⟨h1, h2⟩ =>
      subst h1
      rcases h2 with ⟨n, rfl, hn⟩ | ⟨hm, hk⟩
      · obtain ⟨j, hj⟩ := Option.isSome_iff_exists.1 hn
        obtain ⟨s', h3, h4⟩ := run_set (t := t) hs hj
        exact ⟨s', happens_ext.mpr ⟨hcan.1, hcan.2, h3⟩, h4⟩
      · obtain ⟨s', h3, h4⟩ := run_other (t := t) hs hm hk
        refine ⟨s', happens_ext.mpr ⟨hcan.1, hcan.2, h3⟩, ?_⟩
        rw [onSet, setName_other hk]
        simpa using h4

end TabSet
open TabSet

namespace Tabread4
variable {a1 : String} {c : Ctx} {s : St}

theorem boot {k : Nat} (hc : c.tabId a1 = some k) (tab : Nat → List ℚ) :
    ∃ s, Ends (sys a1 c) [((21, 0), [.bang])] (start c (nodes a1) tab) s ∧ Mem 18 0 [1, 2] 2 c a1 tab [] s := by
  have h1 : (start c (nodes a1) tab).mem 18 = [.sym a1] := rfl
  have h2 : (start c (nodes a1) tab).q = [] := rfl
  have h3 : (start c (nodes a1) tab).log = [] := rfl
  have h4 : (start c (nodes a1) tab).tab = tab := rfl
  refine ⟨?s1, ?h1, ?_⟩
  case h1 =>
    simp [lib_step, lib_tabread4, h1, h4, step_size hc, Op.eval]
    rfl
  refine ⟨?_, ?_, ?_, ?_, ?_⟩
  all_goals simp [lib_step, h1, h2, h3, h4, lastSent, entries, sentTo, hc]

theorem run_set {t : Nat} {tab : Nat → List ℚ} {ns : List String} (h : Mem 18 0 [1, 2] 2 c a1 tab ns s) {n : String} {k : Nat} (hc : c.tabId n = some k) :
    ∃ s', Ends (sys a1 c) [((0, 0), [.sym "set", .sym n])] { s with now := t } s' ∧ Mem 18 0 [1, 2] 2 c a1 tab (ns ++ [n]) s' := by
  obtain ⟨h1, h2, h3, h4, h5⟩ := h
  simp only [sentTo] at h5
  refine ⟨?s1, ?h1, ?_⟩
  case h1 =>
    simp [lib_step, lib_tabread4, h1, h2, step_size hc, Op.eval, key]
    rfl
  simp only [List.mem_cons, List.not_mem_nil, or_false, forall_eq_or_imp, forall_eq] at h5
  refine ⟨?_, ?_, ?_, ?_, ?_⟩
  all_goals simp [lib_step, h1, h2, h3, h5, lastSent, entries, sentTo, hc]

theorem run_other {t : Nat} {tab : Nat → List ℚ} {ns : List String} (h : Mem 18 0 [1, 2] 2 c a1 tab ns s) {m : Msg} (hm : m ≠ []) (hk : key m ≠ .sym "set") :
    ∃ s', Ends (sys a1 c) [((0, 0), m)] { s with now := t } s' ∧ Mem 18 0 [1, 2] 2 c a1 tab ns s' := by
  match m, hm, hk with
  | a :: m, _, hk =>
    refine ⟨?s1, ?h1, ?_⟩
    case h1 =>
      simp [lib_step, lib_tabread4, Ne.symm hk]
      rfl
    obtain ⟨h1, h2, h3, h4, h5⟩ := h
    exact ⟨h1, h2, h3, h4, h5⟩

theorem inlet_of {e : Ev} (he : Fits c e) : Inlet e := by
  cases e with
  | ext t i m => obtain ⟨rfl, -⟩ := he; simp [Inlet]
  | tick => exact he.elim

/-- **C78** the messages in `[tabread4~]`: in the generated code, after every history, the readers have been told every table chosen, and
the number sent last to the limit is the size of the table in use (rounded up to the SIMD width) less 2 -/
theorem told {k : Nat} (hc : c.tabId a1 = some k) (M : Mach) (hM : Code a1 c M) (tab : Nat → List ℚ) (es : List Ev) (hes : ∀ e ∈ es, Fits c e)
    (s : St) (hr : Runs M drv (start c (nodes a1) tab) es s) :
    lastSent s.log 0 = some (((roundUp c.simd (entries c tab (current a1 es)).length : ℕ) : ℚ) - 2) ∧
    ∀ k ∈ [1, 2], (s.log.filter fun e => e.2.1 = k).map (·.2.2) = (sets es).map (fun n => [Atom.sym n]) := by
  have h := (to_code hM (Fits := Fits c) (fun _ => inlet_of) (simulates_of (boot hc tab) (fun h => run_set h) (fun h hm hk => run_other h hm hk))).runs hes hr
  rw [onSet_fold, List.nil_append] at h
  exact ⟨h.1.size, h.1.read⟩

end Tabread4

namespace TabreadS
variable {a1 : String} {c : Ctx} {s : St}

theorem boot {k : Nat} (hc : c.tabId a1 = some k) (tab : Nat → List ℚ) :
    ∃ s, Ends (sys a1 c) [((14, 0), [.bang])] (start c (nodes a1) tab) s ∧ Mem 10 1 [0] 1 c a1 tab [] s := by
  have h1 : (start c (nodes a1) tab).mem 10 = [.sym a1] := rfl
  have h2 : (start c (nodes a1) tab).q = [] := rfl
  have h3 : (start c (nodes a1) tab).log = [] := rfl
  have h4 : (start c (nodes a1) tab).tab = tab := rfl
  refine ⟨?s1, ?h1, ?_⟩
  case h1 =>
    simp [lib_step, lib_tabreads, h1, h4, step_size hc, Op.eval]
    rfl
  refine ⟨?_, ?_, ?_, ?_, ?_⟩
  all_goals simp [lib_step, h1, h2, h3, h4, lastSent, entries, sentTo, hc]

theorem run_set {t : Nat} {tab : Nat → List ℚ} {ns : List String} (h : Mem 10 1 [0] 1 c a1 tab ns s) {n : String} {k : Nat} (hc : c.tabId n = some k) :
    ∃ s', Ends (sys a1 c) [((0, 0), [.sym "set", .sym n])] { s with now := t } s' ∧ Mem 10 1 [0] 1 c a1 tab (ns ++ [n]) s' := by
  obtain ⟨h1, h2, h3, h4, h5⟩ := h
  simp only [sentTo] at h5
  refine ⟨?s1, ?h1, ?_⟩
  case h1 =>
    simp [lib_step, lib_tabreads, h1, h2, step_size hc, Op.eval, key]
    rfl
  simp only [List.mem_cons, List.not_mem_nil, or_false, forall_eq_or_imp, forall_eq] at h5
  refine ⟨?_, ?_, ?_, ?_, ?_⟩
  all_goals simp [lib_step, h1, h2, h3, h5, lastSent, entries, sentTo, hc]

theorem run_other {t : Nat} {tab : Nat → List ℚ} {ns : List String} (h : Mem 10 1 [0] 1 c a1 tab ns s) {m : Msg} (hm : m ≠ []) (hk : key m ≠ .sym "set") :
    ∃ s', Ends (sys a1 c) [((0, 0), m)] { s with now := t } s' ∧ Mem 10 1 [0] 1 c a1 tab ns s' := by
  match m, hm, hk with
  | a :: m, _, hk =>
    refine ⟨?s1, ?h1, ?_⟩
    case h1 =>
      simp [lib_step, lib_tabreads, Ne.symm hk]
      rfl
    obtain ⟨h1, h2, h3, h4, h5⟩ := h
    exact ⟨h1, h2, h3, h4, h5⟩

theorem inlet_of {e : Ev} (he : Fits c e) : Inlet e := by
  cases e with
  | ext t i m => obtain ⟨rfl, -⟩ := he; simp [Inlet]
  | tick => exact he.elim

/-- **C78** the messages in `[tabread~]`: in the generated code, after every history, the readers have been told every table chosen, and
the number sent last to the limit is the size of the table in use (rounded up to the SIMD width) less 1 -/
theorem told {k : Nat} (hc : c.tabId a1 = some k) (M : Mach) (hM : Code a1 c M) (tab : Nat → List ℚ) (es : List Ev) (hes : ∀ e ∈ es, Fits c e)
    (s : St) (hr : Runs M drv (start c (nodes a1) tab) es s) :
    lastSent s.log 1 = some (((roundUp c.simd (entries c tab (current a1 es)).length : ℕ) : ℚ) - 1) ∧
    ∀ k ∈ [0], (s.log.filter fun e => e.2.1 = k).map (·.2.2) = (sets es).map (fun n => [Atom.sym n]) := by
  have h := (to_code hM (Fits := Fits c) (fun _ => inlet_of) (simulates_of (boot hc tab) (fun h => run_set h) (fun h hm hk => run_other h hm hk))).runs hes hr
  rw [onSet_fold, List.nil_append] at h
  exact ⟨h.1.size, h.1.read⟩

end TabreadS

namespace Tabosc4
variable {a1 : String} {c : Ctx} {s : St}

theorem boot {k : Nat} (hc : c.tabId a1 = some k) (tab : Nat → List ℚ) :
    ∃ s, Ends (sys a1 c) [((22, 0), [.bang])] (start c (nodes a1) tab) s ∧ Mem 4 0 [1, 2] 2 c a1 tab [] s := by
  have h1 : (start c (nodes a1) tab).mem 4 = [.sym a1] := rfl
  have h2 : (start c (nodes a1) tab).q = [] := rfl
  have h3 : (start c (nodes a1) tab).log = [] := rfl
  have h4 : (start c (nodes a1) tab).tab = tab := rfl
  refine ⟨?s1, ?h1, ?_⟩
  case h1 =>
    simp [lib_step, lib_tabosc4, h1, h4, step_size hc, Op.eval]
    rfl
  refine ⟨?_, ?_, ?_, ?_, ?_⟩
  all_goals simp [lib_step, h1, h2, h3, h4, lastSent, entries, sentTo, hc]

theorem run_set {t : Nat} {tab : Nat → List ℚ} {ns : List String} (h : Mem 4 0 [1, 2] 2 c a1 tab ns s) {n : String} {k : Nat} (hc : c.tabId n = some k) :
    ∃ s', Ends (sys a1 c) [((0, 0), [.sym "set", .sym n])] { s with now := t } s' ∧ Mem 4 0 [1, 2] 2 c a1 tab (ns ++ [n]) s' := by
  obtain ⟨h1, h2, h3, h4, h5⟩ := h
  simp only [sentTo] at h5
  refine ⟨?s1, ?h1, ?_⟩
  case h1 =>
    simp [lib_step, lib_tabosc4, h1, h2, step_size hc, Op.eval, key]
    rfl
  simp only [List.mem_cons, List.not_mem_nil, or_false, forall_eq_or_imp, forall_eq] at h5
  refine ⟨?_, ?_, ?_, ?_, ?_⟩
  all_goals simp [lib_step, h1, h2, h3, h5, lastSent, entries, sentTo, hc]

theorem run_other {t : Nat} {tab : Nat → List ℚ} {ns : List String} (h : Mem 4 0 [1, 2] 2 c a1 tab ns s) {m : Msg} (hm : m ≠ []) (hk : key m ≠ .sym "set") :
    ∃ s', Ends (sys a1 c) [((0, 0), m)] { s with now := t } s' ∧ Mem 4 0 [1, 2] 2 c a1 tab ns s' := by
  match m, hm, hk with
  | a :: m, _, hk =>
    refine ⟨?s1, ?h1, ?_⟩
    case h1 =>
      simp [lib_step, lib_tabosc4, Ne.symm hk]
      rfl
    obtain ⟨h1, h2, h3, h4, h5⟩ := h
    simp only [sentTo, List.mem_cons, List.not_mem_nil, or_false, forall_eq_or_imp, forall_eq] at h5
    refine ⟨?_, ?_, ?_, ?_, ?_⟩
    all_goals simp [lib_step, h1, h2, h3, h5, lastSent, sentTo]
    simpa [lastSent] using h4

theorem inlet_of {e : Ev} (he : Fits c e) : Inlet e := by
  cases e with
  | ext t i m => obtain ⟨rfl, -⟩ := he; simp [Inlet]
  | tick => exact he.elim

/-- **C78** the messages in `[tabosc4~]`: in the generated code, after every history, the readers have been told every table chosen, and
the number sent last to the limit is the size of the table in use (rounded up to the SIMD width) less 2 -/
theorem told {k : Nat} (hc : c.tabId a1 = some k) (M : Mach) (hM : Code a1 c M) (tab : Nat → List ℚ) (es : List Ev) (hes : ∀ e ∈ es, Fits c e)
    (s : St) (hr : Runs M drv (start c (nodes a1) tab) es s) :
    lastSent s.log 0 = some (((roundUp c.simd (entries c tab (current a1 es)).length : ℕ) : ℚ) - 2) ∧
    ∀ k ∈ [1, 2], (s.log.filter fun e => e.2.1 = k).map (·.2.2) = (sets es).map (fun n => [Atom.sym n]) := by
  have h := (to_code hM (Fits := Fits c) (fun _ => inlet_of) (simulates_of (boot hc tab) (fun h => run_set h) (fun h hm hk => run_other h hm hk))).runs hes hr
  rw [onSet_fold, List.nil_append] at h
  exact ⟨h.1.size, h.1.read⟩

end Tabosc4
end Verif.Lib

namespace Verif.Sig
open Verif.Reduce
open Verif.Lib (Msg Ctx Mach Ev St Runs Atom lastSent start roundUp)
open Verif.Lib.TabSet (Fits sets current entries)

/-- the size of a table is the least multiple of the SIMD width that is not smaller than its length -/
theorem roundUp_spec {w : ℕ} (hw : 0 < w) (n : ℕ) : w ∣ roundUp w n ∧ n ≤ roundUp w n ∧ roundUp w n < n + w := by
  unfold roundUp
  have h := Nat.div_add_mod (n + w - 1) w
  have h2 := Nat.mod_lt (n + w - 1) hw
  rw [Nat.mul_comm] at h
  exact ⟨Nat.dvd_mul_left _ _, by omega, by omega⟩

theorem roundUp_one (n : ℕ) : roundUp 1 n = n := by simp [roundUp]

/-- the name in a message -/
def nameIn : Msg → Option String
  | .sym n :: _ => some n
  | _ => none

/-- a `__tabread~if`: it reads the table whose name came last at its right inlet, at first `a1`; behind the entries, up to the size, are
zeros -/
def NamedReader (W : World ℝ Msg) (o : ℕ) (a1 : String) (c : Ctx) (tab : ℕ → List ℚ) : Prop :=
  ∀ (sig : ℕ → ℕ → ℝ) (ms : ℕ → ℕ → List Msg) (t : ℕ) (i : ℤ), sig 0 t = (i : ℝ) → 0 ≤ i →
    let n := ((ms 1 t).filterMap nameIn).getLast?.getD a1
    i < roundUp c.simd (entries c tab n).length → W.beh o sig ms 0 t = (((entries c tab n).getD i.toNat 0 : ℚ) : ℝ)

/-- the objects of the patch which are not operators: casts, whole additions and readers of tables -/
def TabObjects (W : World ℝ Msg) (l : List (ℕ × String × List ℝ)) (R : ℝ → ℤ) (a1 : String) (c : Ctx) (tab : ℕ → List ℚ) : Prop :=
  Named l "__cast~fi" (fun o _ => IsCast W o R) ∧ Named l "__add~i" (fun o _ => IsAddI W o) ∧
    Named l "__tabread~if" (fun o _ => NamedReader W o a1 c tab)

/-- the entries of a table as a function -/
noncomputable def content (c : Ctx) (tab : ℕ → List ℚ) (n : String) (i : ℤ) : ℝ := (((entries c tab n).getD i.toNat 0 : ℚ) : ℝ)

/-- the code of `[tabread4~]` runs beside the signals -/
def Tab4Runs (a1 : String) (c : Ctx) (M : Mach) (tab : ℕ → List ℚ) (es : ℕ → List Ev) (log : ℕ → List (Sent Msg)) : Prop :=
  ∀ t, ∃ s, Runs M Lib.Tabread4.drv (start c (Lib.Tabread4.nodes a1) tab) (es t) s ∧ SentTo (log t) ((Tabread4.patch 0).ins 10 1) s.log 0 ∧
    SentTo (log t) ((Tabread4.patch 0).ins 13 1) s.log 1 ∧ SentTo (log t) ((Tabread4.patch 0).ins 14 1) s.log 2

variable {W : World ℝ Msg} {log : ℕ → List (Sent Msg)} {v : ℕ → ℕ → ℕ → ℝ} {a1 : String} {c : Ctx} {M : Mach} {tab : ℕ → List ℚ}
  {es : ℕ → List Ev}

theorem names_sets (l : List String) : (l.map fun n => [Atom.sym n]).filterMap nameIn = l := by
  induction l with
  | nil => rfl
  | cons a l ih => simp [nameIn] at ih ⊢; exact ih

/-- **C78** `[tabread4~]`, code and signals: after every history of messages the output is the linear interpolation of the table in use, at
the position restricted to 0 ... size - 2, where the size is the length rounded up to the SIMD width; both indices are below the size -/
theorem tabread4_plays (hn : W.num = firstNum) (hW : IsReal W) {R : ℝ → ℤ} (hR : Whole R) (hob : TabObjects W (Tabread4.special 0) R a1 c tab)
    (h : Solves W (Tabread4.patch 0) log v)
    (hc : (c.tabId a1).isSome) (hM : Lib.Tabread4.Code a1 c M) (hr : Tab4Runs a1 c M tab es log)
    (hes : ∀ t, ∀ e ∈ es t, Fits c e) (t : ℕ) (h2 : 2 ≤ (entries c tab (current a1 (es t))).length) (hw : 0 < c.simd) :
    let n := current a1 (es t)
    let x := clip0 (roundUp c.simd (entries c tab n).length - 2) (v Tabread4.in0 0 t)
    inSum v ((Tabread4.patch 0).ins Tabread4.out0 0) t = lerp (content c tab n) x ∧ 0 ≤ ⌊x⌋ ∧ ⌊x⌋ + 1 < roundUp c.simd (entries c tab n).length := by
  have hcast := hob.1 5 [] (by simp [Tabread4.special])
  have hadd := hob.2.1 6 [] (by simp [Tabread4.special])
  have hhi := hob.2.2 13 [0] (by simp [Tabread4.special])
  have hlo := hob.2.2 14 [0] (by simp [Tabread4.special])
  obtain ⟨k, hk⟩ := Option.isSome_iff_exists.1 hc
  obtain ⟨s, hs, m0, m1, m2⟩ := hr t
  obtain ⟨c0, cr⟩ := Lib.Tabread4.told hk M hM tab (es t) (hes t) s hs
  have c1 := cr 1 (by simp)
  have c2 := cr 2 (by simp)
  refine tabread4_at hW h hR (h2.trans (roundUp_spec hw _).2.1) hcast hadd t ?_ ?_
  · have hname : ∀ o, o = 13 ∨ o = 14 → ((received (log t) ((Tabread4.patch 0).ins o 1)).filterMap nameIn).getLast?.getD a1 = current a1 (es t) := by
      rintro o (rfl | rfl)
      · rw [m1, c1, names_sets]; rfl
      · rw [m2, c2, names_sets]; rfl
    rintro o ho i hi h0 h1
    have e := hname o ho
    rcases ho with rfl | rfl
    · rw [other_of h (by simp [Tabread4.patch, ofConns]) rfl]
      have := hhi (fun i t => inSum v ((Tabread4.patch 0).ins 13 i) t) (fun i t => received (log t) ((Tabread4.patch 0).ins 13 i)) t i hi h0
      simp only [e] at this
      exact this h1
    · rw [other_of h (by simp [Tabread4.patch, ofConns]) rfl]
      have := hlo (fun i t => inSum v ((Tabread4.patch 0).ins 14 i) t) (fun i t => received (log t) ((Tabread4.patch 0).ins 14 i)) t i hi h0
      simp only [e] at this
      exact this h1
  · have := held_sent hn m0 c0 0
    rw [show (Tabread4.patch (0 : ℝ)).ins 10 1 = [⟨11, 0, 10, 1, .c⟩] by simp [Tabread4.patch, ofConns, Tabread4.conns, Conn.into], held_eq] at this
    rw [this]
    push_cast
    rfl

/-- **C78** (finding): the end of a table depends on the build.  With SIMD width `w`, a table whose length leaves room for two more entries
in its size is followed by zeros, and a position far behind the end reads one of them -/
theorem tabread4_pad (hn : W.num = firstNum) (hW : IsReal W) {R : ℝ → ℤ} (hR : Whole R) (hob : TabObjects W (Tabread4.special 0) R a1 c tab)
    (h : Solves W (Tabread4.patch 0) log v)
    (hc : (c.tabId a1).isSome) (hM : Lib.Tabread4.Code a1 c M) (hr : Tab4Runs a1 c M tab es log)
    (hes : ∀ t, ∀ e ∈ es t, Fits c e) (t : ℕ) (h2 : 2 ≤ (entries c tab (current a1 (es t))).length) (hw : 0 < c.simd)
    (hx : (roundUp c.simd (entries c tab (current a1 (es t))).length : ℝ) - 2 ≤ v Tabread4.in0 0 t) :
    inSum v ((Tabread4.patch 0).ins Tabread4.out0 0) t =
      (((entries c tab (current a1 (es t))).getD (roundUp c.simd (entries c tab (current a1 (es t))).length - 2) 0 : ℚ) : ℝ) ∧
    ((entries c tab (current a1 (es t))).length + 2 ≤ roundUp c.simd (entries c tab (current a1 (es t))).length →
      inSum v ((Tabread4.patch 0).ins Tabread4.out0 0) t = 0) := by
  have e := (tabread4_plays hn hW hR hob h hc hM hr hes t h2 hw).1
  have hge := h2.trans (roundUp_spec hw (entries c tab (current a1 (es t))).length).2.1
  generalize roundUp c.simd (entries c tab (current a1 (es t))).length = N at *
  have h0 : (0 : ℝ) ≤ N - 2 := by
    have : (2 : ℝ) ≤ N := by exact_mod_cast hge
    linarith
  rw [clip0_high h0 hx] at e
  have e2 := lerp_int (content c tab (current a1 (es t))) ((N - 2 : ℕ) : ℤ)
  rw [Int.cast_natCast, Nat.cast_sub hge] at e2
  push_cast at e2
  rw [e2] at e
  have e3 : content c tab (current a1 (es t)) ((N - 2 : ℕ) : ℤ) = (((entries c tab (current a1 (es t))).getD (N - 2) 0 : ℚ) : ℝ) := by
    unfold content
    rw [Int.toNat_natCast]
  rw [e3] at e
  refine ⟨e, fun hl => ?_⟩
  rw [e, List.getD, List.getElem?_eq_none (by omega)]
  simp

/-- the code of `[tabread~]` runs beside the signals -/
def Tab1Runs (a1 : String) (c : Ctx) (M : Mach) (tab : ℕ → List ℚ) (es : ℕ → List Ev) (log : ℕ → List (Sent Msg)) : Prop :=
  ∀ t, ∃ s, Runs M Lib.TabreadS.drv (start c (Lib.TabreadS.nodes a1) tab) (es t) s ∧ SentTo (log t) ((Tabread.patch 0).ins 4 1) s.log 1 ∧
    SentTo (log t) ((Tabread.patch 0).ins 6 1) s.log 0

/-- what the reader gives, and the limit -/
theorem tabread_reads (hn : W.num = firstNum) (hrd : NamedReader W 6 a1 c tab) (h : Solves W (Tabread.patch 0) log v)
    (hc : (c.tabId a1).isSome) (hM : Lib.TabreadS.Code a1 c M) (hr : Tab1Runs a1 c M tab es log) (hes : ∀ t, ∀ e ∈ es t, Fits c e) (t : ℕ) :
    (∀ i : ℤ, inSum v ((Tabread.patch 0).ins 6 0) t = i → 0 ≤ i → i < roundUp c.simd (entries c tab (current a1 (es t))).length →
      v 6 0 t = content c tab (current a1 (es t)) i) ∧
    heldAt W 0 (log t) 10 = roundUp c.simd (entries c tab (current a1 (es t))).length - 1 := by
  obtain ⟨k, hk⟩ := Option.isSome_iff_exists.1 hc
  obtain ⟨s, hs, m0, m1⟩ := hr t
  obtain ⟨c0, cr⟩ := Lib.TabreadS.told hk M hM tab (es t) (hes t) s hs
  refine ⟨fun i hi h0 h1 => ?_, ?_⟩
  · have e : ((received (log t) ((Tabread.patch 0).ins 6 1)).filterMap nameIn).getLast?.getD a1 = current a1 (es t) := by
      rw [m1, cr 0 (by simp), names_sets]; rfl
    rw [other_of h (by simp [Tabread.patch, ofConns]) rfl]
    have := hrd (fun i t => inSum v ((Tabread.patch 0).ins 6 i) t) (fun i t => received (log t) ((Tabread.patch 0).ins 6 i)) t i hi h0
    simp only [e] at this
    exact this h1
  · have := held_sent hn m0 c0 0
    rw [show (Tabread.patch (0 : ℝ)).ins 4 1 = [⟨10, 0, 4, 1, .c⟩] by simp [Tabread.patch, ofConns, Tabread.conns, Conn.into], held_eq] at this
    rw [this]
    push_cast
    rfl

/-- **C78** `[tabread~]`, code and signals, NEON and scalar: after every history of messages the output is the entry of the table in use at the
position rounded down, restricted to 0 ... size - 1 -/
theorem tabread_plays_cut (hn : W.num = firstNum) (hW : IsReal W) {R : ℝ → ℤ} (hR : Cuts R) (hob : TabObjects W (Tabread.special 0) R a1 c tab)
    (h : Solves W (Tabread.patch 0) log v)
    (hc : (c.tabId a1).isSome) (hM : Lib.TabreadS.Code a1 c M) (hr : Tab1Runs a1 c M tab es log)
    (hes : ∀ t, ∀ e ∈ es t, Fits c e) (t : ℕ) (h1 : 1 ≤ (entries c tab (current a1 (es t))).length) (hw : 0 < c.simd) :
    let n := current a1 (es t)
    let x := clip0 (roundUp c.simd (entries c tab n).length - 1) (v Tabread.in0 0 t)
    inSum v ((Tabread.patch 0).ins Tabread.out0 0) t = content c tab n ⌊x⌋ ∧ 0 ≤ ⌊x⌋ ∧ ⌊x⌋ < roundUp c.simd (entries c tab n).length := by
  have hcast := hob.1 1 [] (by simp [Tabread.special])
  have hrd := hob.2.2 6 [0] (by simp [Tabread.special])
  obtain ⟨a, b⟩ := tabread_reads hn hrd h hc hM hr hes t
  exact tabread_tilde_cut_at hW h hR (h1.trans (roundUp_spec hw _).2.1) hcast a b

/-- **C78** the same, SSE and AVX: at the nearest whole position (F67) -/
theorem tabread_plays_round (hn : W.num = firstNum) (hW : IsReal W) {R : ℝ → ℤ} (hR : Rounds R) (hob : TabObjects W (Tabread.special 0) R a1 c tab)
    (h : Solves W (Tabread.patch 0) log v)
    (hc : (c.tabId a1).isSome) (hM : Lib.TabreadS.Code a1 c M) (hr : Tab1Runs a1 c M tab es log)
    (hes : ∀ t, ∀ e ∈ es t, Fits c e) (t : ℕ) (h1 : 1 ≤ (entries c tab (current a1 (es t))).length) (hw : 0 < c.simd) :
    let n := current a1 (es t)
    let N := roundUp c.simd (entries c tab n).length
    ∃ i : ℤ, |(i : ℝ) - clip0 (N - 1) (v Tabread.in0 0 t)| ≤ 1 / 2 ∧ 0 ≤ i ∧ i < N ∧
      inSum v ((Tabread.patch 0).ins Tabread.out0 0) t = content c tab n i := by
  have hcast := hob.1 1 [] (by simp [Tabread.special])
  have hrd := hob.2.2 6 [0] (by simp [Tabread.special])
  obtain ⟨a, b⟩ := tabread_reads hn hrd h hc hM hr hes t
  exact tabread_tilde_round_at hW h hR (h1.trans (roundUp_spec hw _).2.1) hcast a b

/-- the code of `[tabosc4~]` runs beside the signals -/
def Osc4Runs (a1 : String) (c : Ctx) (M : Mach) (tab : ℕ → List ℚ) (es : ℕ → List Ev) (log : ℕ → List (Sent Msg)) : Prop :=
  ∀ t, ∃ s, Runs M Lib.Tabosc4.drv (start c (Lib.Tabosc4.nodes a1) tab) (es t) s ∧ SentTo (log t) ((Tabosc4.patch 0).ins 0 1) s.log 0 ∧
    SentTo (log t) ((Tabosc4.patch 0).ins 14 1) s.log 1 ∧ SentTo (log t) ((Tabosc4.patch 0).ins 13 1) s.log 2

/-- **C78** `[tabosc4~]`, code and signals: after every history of messages the output is the linear interpolation of the table in use at the
phase times the size less 2 -/
theorem tabosc4_plays (hn : W.num = firstNum) (hW : IsReal W) {R : ℝ → ℤ} (hR : Whole R) (hob : TabObjects W (Tabosc4.special 0) R a1 c tab)
    (h : Solves W (Tabosc4.patch 0) log v)
    (hc : (c.tabId a1).isSome) (hM : Lib.Tabosc4.Code a1 c M) (hr : Osc4Runs a1 c M tab es log)
    (hes : ∀ t, ∀ e ∈ es t, Fits c e) (t : ℕ) (h2 : 2 ≤ (entries c tab (current a1 (es t))).length) (hw : 0 < c.simd)
    (h0 : 0 ≤ v 20 0 t) (h1 : v 20 0 t < 1) :
    let n := current a1 (es t)
    let x := v 20 0 t * (roundUp c.simd (entries c tab n).length - 2)
    inSum v ((Tabosc4.patch 0).ins Tabosc4.out0 0) t = lerp (content c tab n) x ∧ 0 ≤ ⌊x⌋ ∧ ⌊x⌋ + 1 < roundUp c.simd (entries c tab n).length := by
  have hcast := hob.1 10 [] (by simp [Tabosc4.special])
  have hadd := hob.2.1 11 [] (by simp [Tabosc4.special])
  have hhi := hob.2.2 13 [0] (by simp [Tabosc4.special])
  have hlo := hob.2.2 14 [0] (by simp [Tabosc4.special])
  obtain ⟨k, hk⟩ := Option.isSome_iff_exists.1 hc
  obtain ⟨s, hs, m0, m1, m2⟩ := hr t
  obtain ⟨c0, cr⟩ := Lib.Tabosc4.told hk M hM tab (es t) (hes t) s hs
  have c1 := cr 1 (by simp)
  have c2 := cr 2 (by simp)
  refine tabosc4_tilde_at hW h hR (h2.trans (roundUp_spec hw _).2.1) hcast hadd ?_ ?_ h0 h1
  · have hname : ∀ o, o = 13 ∨ o = 14 → ((received (log t) ((Tabosc4.patch 0).ins o 1)).filterMap nameIn).getLast?.getD a1 = current a1 (es t) := by
      rintro o (rfl | rfl)
      · rw [m2, c2, names_sets]; rfl
      · rw [m1, c1, names_sets]; rfl
    rintro o ho i hi h0 h1
    have e := hname o ho
    rcases ho with rfl | rfl
    · rw [other_of h (by simp [Tabosc4.patch, ofConns]) rfl]
      have := hhi (fun i t => inSum v ((Tabosc4.patch 0).ins 13 i) t) (fun i t => received (log t) ((Tabosc4.patch 0).ins 13 i)) t i hi h0
      simp only [e] at this
      exact this h1
    · rw [other_of h (by simp [Tabosc4.patch, ofConns]) rfl]
      have := hlo (fun i t => inSum v ((Tabosc4.patch 0).ins 14 i) t) (fun i t => received (log t) ((Tabosc4.patch 0).ins 14 i)) t i hi h0
      simp only [e] at this
      exact this h1
  · have := held_sent hn m0 c0 0
    rw [show (Tabosc4.patch (0 : ℝ)).ins 0 1 = [⟨15, 0, 0, 1, .c⟩] by simp [Tabosc4.patch, ofConns, Tabosc4.conns, Conn.into], held_eq] at this
    rw [this]
    push_cast
    rfl

/-! ### the hypotheses can be met -/

/-- where `[tabread4~]` sends its messages -/
def tab4Src (k : ℕ) : ℕ × ℕ := if k = 0 then (11, 0) else if k = 1 then (16, 0) else (99, 0)

/-- a world with the tables `tab` and the signal `x` at the left inlet -/
noncomputable def tab4World (hi lo cast add inp : ℕ) (a1 : String) (c : Ctx) (tab : ℕ → List ℚ) (x : ℕ → ℝ) : World ℝ Msg where
  bin := (tabWorld 5 6 7 13 14 21 (fun _ => 0) x).bin
  un := (tabWorld 5 6 7 13 14 21 (fun _ => 0) x).un
  num := firstNum
  beh o sig ms j t := if o = hi ∨ o = lo then content c tab (((ms 1 t).filterMap nameIn).getLast?.getD a1) ⌊sig 0 t⌋
    else if o = cast then ((if 0 ≤ sig 0 t then ⌊sig 0 t⌋ else ⌈sig 0 t⌉ : ℤ) : ℝ) else if o = add then sig 0 t + sig 1 t else if o = inp then x t else 0
  late _ _ := false
  block := 64

theorem tab4World_real (p q r u i : ℕ) (a1 : String) (c : Ctx) (tab : ℕ → List ℚ) (x : ℕ → ℝ) : IsReal (tab4World p q r u i a1 c tab x) := by
  constructor <;> intros <;> simp [tab4World, tabWorld]

/-- all the hypotheses can be met: with every history (at all times the same here) and every signal -/
theorem tabread4_example (hc : (c.tabId a1).isSome) (hM : Lib.Tabread4.Code a1 c M) (tab : ℕ → List ℚ) (x : ℕ → ℝ) (h : List Ev)
    (hes : ∀ e ∈ h, Fits c e) {s : St} (hs : Runs M Lib.Tabread4.drv (start c (Lib.Tabread4.nodes a1) tab) h s) :
    ∃ (W : World ℝ Msg) (log : _) (v : _) (R : ℝ → ℤ), W.num = firstNum ∧ IsReal W ∧ Whole R ∧ TabObjects W (Tabread4.special 0) R a1 c tab ∧
      Solves W (Tabread4.patch 0) log v ∧ Tab4Runs a1 c M tab (fun _ => h) log ∧
      v Tabread4.in0 0 = x := by
  obtain ⟨k, hk⟩ := Option.isSome_iff_exists.1 hc
  have cr := (Lib.Tabread4.told hk M hM tab h hes s hs).2
  have c1 := cr 1 (by simp)
  have c2 := cr 2 (by simp)
  obtain ⟨v, hv⟩ := Tabread4.signals 0 (tab4World 13 14 5 6 21 a1 c tab x) (fun _ => asSent tab4Src s.log)
  have h1 : SentTo (asSent tab4Src s.log) ((Tabread4.patch 0).ins 13 1) s.log 1 := by
    apply sentTo_asSent
    intro j m
    simp only [Tabread4.patch, ofConns, Tabread4.conns, Conn.into, tab4Src, received]
    split <;> [skip; split] <;> simp_all
  refine ⟨_, _, v, _, rfl, tab4World_real .., tabWorld_whole, ⟨?_, ?_, ?_⟩, hv, fun t => ⟨s, hs, ?_, h1, ?_⟩, ?_⟩
  · intro o as ho
    obtain ⟨rfl, -⟩ : o = 5 ∧ as = [] := by simpa [Tabread4.special] using ho
    intro s m t; simp [tab4World]
  · intro o as ho
    obtain ⟨rfl, -⟩ : o = 6 ∧ as = [] := by simpa [Tabread4.special] using ho
    intro s m t; simp [tab4World]
  · intro o as ho
    have ho : o = 13 ∨ o = 14 := by
      simp [Tabread4.special] at ho
      tauto
    rcases ho with rfl | rfl <;> intro s m t i hi h0 n hn <;> simp [tab4World, hi, content, n]
  · apply sentTo_asSent
    intro j m
    simp only [Tabread4.patch, ofConns, Tabread4.conns, Conn.into, tab4Src, received]
    split <;> [skip; split] <;> simp_all
  · unfold SentTo
    rw [c2, ← c1, ← h1]
    unfold received
    refine List.flatMap_congr fun e _ => ?_
    simp [Tabread4.patch, ofConns, Tabread4.conns, Conn.into]
  · funext t
    rw [other_of hv (by simp [Tabread4.patch, ofConns]) rfl]
    simp [tab4World]

/-- the same for `[tabread~]` -/
theorem tabread_example (hM : Lib.TabreadS.Code a1 c M) (tab : ℕ → List ℚ) (x : ℕ → ℝ) (h : List Ev)
    {s : St} (hs : Runs M Lib.TabreadS.drv (start c (Lib.TabreadS.nodes a1) tab) h s) :
    ∃ (W : World ℝ Msg) (log : _) (v : _) (R : ℝ → ℤ), W.num = firstNum ∧ IsReal W ∧ Cuts R ∧ TabObjects W (Tabread.special 0) R a1 c tab ∧
      Solves W (Tabread.patch 0) log v ∧ Lib.TabreadS.Code a1 c M ∧ Tab1Runs a1 c M tab (fun _ => h) log ∧ v Tabread.in0 0 = x := by
  obtain ⟨v, hv⟩ := Tabread.signals 0 (tab4World 6 6 1 99 12 a1 c tab x)
    (fun _ => asSent (fun k => if k = 1 then (10, 0) else if k = 0 then (8, 0) else (99, 0)) s.log)
  refine ⟨_, _, v, fun y => if 0 ≤ y then ⌊y⌋ else ⌈y⌉, rfl, tab4World_real .., fun y hy => if_pos hy, ⟨?_, ?_, ?_⟩, hv, hM, fun t => ⟨s, hs, ?_, ?_⟩, ?_⟩
  · intro o as ho
    obtain ⟨rfl, -⟩ : o = 1 ∧ as = [] := by simpa [Tabread.special] using ho
    intro s m t; simp [tab4World]
  · intro o as ho
    simp [Tabread.special] at ho
  · intro o as ho
    obtain ⟨rfl, -⟩ : o = 6 ∧ as = [0] := by simpa [Tabread.special] using ho
    intro s m t i hi h0 n hn
    simp [tab4World, hi, content, n]
  · apply sentTo_asSent
    intro j m
    simp only [Tabread.patch, ofConns, Tabread.conns, Conn.into, received]
    split <;> [skip; split] <;> simp_all
  · apply sentTo_asSent
    intro j m
    simp only [Tabread.patch, ofConns, Tabread.conns, Conn.into, received]
    split <;> [skip; split] <;> simp_all
  · funext t
    rw [other_of hv (by simp [Tabread.patch, ofConns]) rfl]
    simp [tab4World]

/-- the same for `[tabosc4~]`; `x` is the phase -/
theorem tabosc4_example (hc : (c.tabId a1).isSome) (hM : Lib.Tabosc4.Code a1 c M) (tab : ℕ → List ℚ) (x : ℕ → ℝ) (h : List Ev)
    (hes : ∀ e ∈ h, Fits c e) {s : St} (hs : Runs M Lib.Tabosc4.drv (start c (Lib.Tabosc4.nodes a1) tab) h s) :
    ∃ (W : World ℝ Msg) (log : _) (v : _) (R : ℝ → ℤ), W.num = firstNum ∧ IsReal W ∧ Whole R ∧ TabObjects W (Tabosc4.special 0) R a1 c tab ∧
      Solves W (Tabosc4.patch 0) log v ∧ Osc4Runs a1 c M tab (fun _ => h) log ∧
      v 20 0 = x := by
  obtain ⟨k, hk⟩ := Option.isSome_iff_exists.1 hc
  have cr := (Lib.Tabosc4.told hk M hM tab h hes s hs).2
  have c1 := cr 1 (by simp)
  have c2 := cr 2 (by simp)
  obtain ⟨v, hv⟩ := Tabosc4.signals 0 (tab4World 13 14 10 11 20 a1 c tab x)
    (fun _ => asSent (fun k => if k = 0 then (15, 0) else if k = 1 then (17, 0) else (99, 0)) s.log)
  have h1 : SentTo (asSent (fun k => if k = 0 then (15, 0) else if k = 1 then (17, 0) else (99, 0)) s.log) ((Tabosc4.patch 0).ins 14 1) s.log 1 := by
    apply sentTo_asSent
    intro j m
    simp only [Tabosc4.patch, ofConns, Tabosc4.conns, Conn.into, received]
    split <;> [skip; split] <;> simp_all
  refine ⟨_, _, v, _, rfl, tab4World_real .., tabWorld_whole, ⟨?_, ?_, ?_⟩, hv, fun t => ⟨s, hs, ?_, h1, ?_⟩, ?_⟩
  · intro o as ho
    obtain ⟨rfl, -⟩ : o = 10 ∧ as = [] := by simpa [Tabosc4.special] using ho
    intro s m t; simp [tab4World]
  · intro o as ho
    obtain ⟨rfl, -⟩ : o = 11 ∧ as = [] := by simpa [Tabosc4.special] using ho
    intro s m t; simp [tab4World]
  · intro o as ho
    have ho : o = 13 ∨ o = 14 := by
      simp [Tabosc4.special] at ho
      tauto
    rcases ho with rfl | rfl <;> intro s m t i hi h0 n hn <;> simp [tab4World, hi, content, n]
  · apply sentTo_asSent
    intro j m
    simp only [Tabosc4.patch, ofConns, Tabosc4.conns, Conn.into, received]
    split <;> [skip; split] <;> simp_all
  · unfold SentTo
    rw [c2, ← c1, ← h1]
    unfold received
    refine List.flatMap_congr fun e _ => ?_
    simp [Tabosc4.patch, ofConns, Tabosc4.conns, Conn.into]
  · funext t
    rw [other_of hv (by simp [Tabosc4.patch, ofConns]) rfl]
    simp [tab4World]

end Verif.Sig
