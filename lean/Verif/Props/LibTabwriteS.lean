import Verif.Lib.TabwriteS
import Verif.Props.LibTabplay
import Mathlib.Tactic.FieldSimp
/-!
# C86: `[tabwrite~]`

The messages the patch sends to its recorder, when, and what the recorder makes of them.
-/
namespace Verif.Lib
open Verif.Control (Dest Kind Cast Patch Act Sys Env Big)
open TabSet (entries step_size)

namespace TabwriteS
variable {a1 : String} {c : Ctx} {s : St} {tab : Nat → List ℚ}
open Tabplay (size)

/-- the probes: messages for the two inlets of the recorder -/
def TABLE : Nat := 0
def WRITE : Nat := 1

/-- the table chosen last, the time at which the recording will be stopped, and what was sent to the recorder, when -/
structure Desk where
  name : String
  ends : Option Nat
  sent : List (Nat × Nat × Msg)

/-- a recording begins at `p`; it will be stopped when the table is full -/
def Desk.begin (c : Ctx) (tab : Nat → List ℚ) (x : Desk) (t : Nat) (p : ℚ) : Desk :=
  { x with ends := some (t + ⌊max 0 ((size c tab x.name : ℚ) - p)⌋.toNat), sent := x.sent ++ [(t, WRITE, [.float p])] }

/-- `stop` stops, `set n` chooses a table, `start p` begins at `p`, anything else begins at 0 -/
def Desk.on (c : Ctx) (tab : Nat → List ℚ) (x : Desk) : Ev → Desk
  | .ext t _ [.sym "set", .sym n] => { x with name := n, sent := x.sent ++ [(t, TABLE, [.sym n])] }
  | .ext t _ [.sym "stop"] => { x with sent := x.sent ++ [(t, WRITE, [.sym "stop"])] }
  | .ext t _ [.sym "start", .float p] => x.begin c tab t p
  | .ext t _ _ => x.begin c tab t 0
  | .tick => match x.ends with
    | some t => { x with ends := none, sent := x.sent ++ [(t, WRITE, [.sym "stop"])] }
    | none => x

/-- the messages meant for it: `set` with the name of a table, `stop`, `start` with a number, or bang -/
def Fits (c : Ctx) : Ev → Prop
  | .ext _ i m => i = 0 ∧ ((∃ n, m = [.sym "set", .sym n] ∧ (c.tabId n).isSome) ∨ m = [.sym "stop"] ∨ (∃ p, m = [.sym "start", .float p]) ∨ m = [.bang])
  | .tick => True

theorem Fits.inlet {e : Ev} (h : Fits c e) : Inlet e := by
  cases e with
  | ext t i m => obtain ⟨rfl, -⟩ := h; simp [Inlet]
  | tick => simp [Inlet]

/-- what the objects keep -/
structure Sim (c : Ctx) (tab : Nat → List ℚ) (x : Desk) (s : St) : Prop where
  name : s.mem 18 = [.sym x.name]
  size : s.mem 10 = [.float (size c tab x.name : ℚ)]
  rate : s.mem 6 = [.float (c.sr / 1000)]
  tabs : s.tab = tab
  log : s.log = x.sent
  queue : ∃ m : Msg, s.q = x.ends.toList.map fun t => ⟨t, 15, m⟩

theorem boot {k : Nat} (hc : c.tabId a1 = some k) (tab : Nat → List ℚ) :
    ∃ s, Ends (sys a1 c) [((21, 0), [.bang]), ((24, 0), [.bang]), ((27, 0), [.bang])] (start c (nodes a1) tab) s ∧
      Sim c tab ⟨a1, none, [(0, WRITE, [.sym "stop"])]⟩ s := by
  have h1 : (start c (nodes a1) tab).mem 18 = [.sym a1] := rfl
  have h2 : (start c (nodes a1) tab).q = [] := rfl
  have h3 : (start c (nodes a1) tab).log = [] := rfl
  have h4 : (start c (nodes a1) tab).tab = tab := rfl
  have h5 : (start c (nodes a1) tab).now = 0 := rfl
  refine ⟨?s1, (?h1 : Ends (sys a1 c) [((21, 0), [.bang]), ((24, 0), [.bang]), ((27, 0), [.bang])] _ _), ?_⟩
  case h1 =>
    simp [lib_step, lib_tabwrites, h1, h4, step_size hc, Op.eval]
    rfl
  refine ⟨?_, ?_, ?_, ?_, ?_, [], ?_⟩
  all_goals simp [lib_step, h1, h2, h3, h4, h5, size, entries, hc, WRITE]

theorem run_set {t : Nat} {x : Desk} (h : Sim c tab x s) {n : String} {k : Nat} (hc : c.tabId n = some k) :
    ∃ s', Ends (sys a1 c) [((0, 0), [.sym "set", .sym n])] { s with now := t } s' ∧ Sim c tab (x.on c tab (.ext t 0 [.sym "set", .sym n])) s' := by
  obtain ⟨h1, h2, h3, h4, h5, m, h6⟩ := h
  refine ⟨?s1, (?h1 : Ends (sys a1 c) [((0, 0), [.sym "set", .sym n])] _ _), ?_⟩
  case h1 =>
    simp [lib_step, lib_tabwrites, h1, h4, step_size hc, Op.eval, key, List.findIdx_cons]
    rfl
  refine ⟨?_, ?_, ?_, ?_, ?_, m, ?_⟩
  all_goals simp [lib_step, h1, h2, h3, h4, h5, h6, size, entries, hc, TABLE, Desk.on]

theorem run_stop {t : Nat} {x : Desk} (h : Sim c tab x s) :
    ∃ s', Ends (sys a1 c) [((0, 0), [.sym "stop"])] { s with now := t } s' ∧ Sim c tab (x.on c tab (.ext t 0 [.sym "stop"])) s' := by
  obtain ⟨h1, h2, h3, h4, h5, m, h6⟩ := h
  refine ⟨?s1, (?h1 : Ends (sys a1 c) [((0, 0), [.sym "stop"])] _ _), ?_⟩
  case h1 =>
    simp [lib_step, lib_tabwrites, key, List.findIdx_cons]
    rfl
  refine ⟨?_, ?_, ?_, ?_, ?_, m, ?_⟩
  all_goals simp [h1, h2, h3, h4, h5, h6, WRITE, Desk.on]

theorem ms_samples {sr x : ℚ} (h : 0 < sr) : max 0 (x / (sr / 1000)) * sr / 1000 = max 0 x := by
  have e : x / (sr / 1000) = x * (1000 / sr) := by field_simp
  have h2 : 0 ≤ 1000 / sr := by positivity
  rw [e]
  rcases le_total 0 x with hx | hx
  · rw [max_eq_right hx, max_eq_right (mul_nonneg hx h2)]
    field_simp
  · rw [max_eq_left hx, max_eq_left (mul_nonpos_of_nonpos_of_nonneg hx h2)]
    simp

theorem filter15 {q : List Pend} {m : Msg} {l : Option Nat} (h : q = l.toList.map fun t => ⟨t, 15, m⟩) :
    q.filter (fun p => !decide (p.obj = 15)) = [] := by
  rw [h]; cases l <;> simp

theorem run_start {t : Nat} {x : Desk} (hsr : 0 < c.sr) (h : Sim c tab x s) {p : ℚ} :
    ∃ s', Ends (sys a1 c) [((0, 0), [.sym "start", .float p])] { s with now := t } s' ∧
      Sim c tab (x.on c tab (.ext t 0 [.sym "start", .float p])) s' := by
  obtain ⟨h1, h2, h3, h4, h5, m, h6⟩ := h
  have h7 := filter15 h6
  have hne : c.sr ≠ 0 := hsr.ne'
  refine ⟨?s1, (?h1 : Ends (sys a1 c) [((0, 0), [.sym "start", .float p])] _ _), ?_⟩
  case h1 =>
    simp [lib_step, lib_tabwrites, h1, h2, h3, h4, h7, hne, num, waiting, maxMessages, Op.eval, key, List.findIdx_cons]
    rfl
  refine ⟨?_, ?_, ?_, ?_, ?_, [.float (((size c tab x.name : ℚ) - p) / (c.sr / 1000))], ?_⟩
  all_goals simp [lib_step, h1, h2, h3, h4, h5, WRITE, Desk.on, Desk.begin, ms_samples hsr, insert]

theorem run_bang {t : Nat} {x : Desk} (hsr : 0 < c.sr) (h : Sim c tab x s) :
    ∃ s', Ends (sys a1 c) [((0, 0), [.bang])] { s with now := t } s' ∧ Sim c tab (x.on c tab (.ext t 0 [.bang])) s' := by
  obtain ⟨h1, h2, h3, h4, h5, m, h6⟩ := h
  have h7 := filter15 h6
  have hne : c.sr ≠ 0 := hsr.ne'
  refine ⟨?s1, (?h1 : Ends (sys a1 c) [((0, 0), [.bang])] _ _), ?_⟩
  case h1 =>
    simp [lib_step, lib_tabwrites, h1, h2, h3, h4, h7, hne, num, waiting, maxMessages, Op.eval, key, List.findIdx_cons]
    rfl
  refine ⟨?_, ?_, ?_, ?_, ?_, [.float ((size c tab x.name : ℚ) / (c.sr / 1000))], ?_⟩
  all_goals simp [lib_step, h1, h2, h3, h4, h5, WRITE, Desk.on, Desk.begin, ms_samples hsr, insert]

theorem run_tick {t : Nat} {x : Desk} (h : Sim c tab x s) (hx : x.ends = some t) {m : Msg} :
    ∃ s', Ends (sys a1 c) [((14, 0), m)] { s with now := t, q := [] } s' ∧ Sim c tab (x.on c tab .tick) s' := by
  obtain ⟨h1, h2, h3, h4, h5, -⟩ := h
  refine ⟨?s1, (?h1 : Ends (sys a1 c) [((14, 0), m)] _ _), ?_⟩
  case h1 =>
    simp [lib_step, lib_tabwrites]
    rfl
  refine ⟨?_, ?_, ?_, ?_, ?_, [], ?_⟩
  all_goals simp [h1, h2, h3, h4, h5, WRITE, Desk.on, hx]

theorem sim {k : Nat} (hc : c.tabId a1 = some k) (hsr : 0 < c.sr) (tab : Nat → List ℚ) :
    Simulates (mach a1 c) drv (start c (nodes a1) tab) (Fits c) (Desk.on c tab) ⟨a1, none, [(0, WRITE, [.sym "stop"])]⟩ (Sim c tab) where
  boot := boot hc tab
  step := by
    intro x s e hs hf hcan
    cases e with
    | ext t i m =>
      obtain ⟨rfl, ⟨n, rfl, hn⟩ | rfl | ⟨p, rfl⟩ | rfl⟩ := hf
      · obtain ⟨j, hj⟩ := Option.isSome_iff_exists.1 hn
        obtain ⟨s', h1, h2⟩ := run_set (a1 := a1) (t := t) hs hj
        exact ⟨s', happens_ext.mpr ⟨hcan.1, hcan.2, h1⟩, h2⟩
      · obtain ⟨s', h1, h2⟩ := run_stop (a1 := a1) (t := t) hs
        exact ⟨s', happens_ext.mpr ⟨hcan.1, hcan.2, h1⟩, h2⟩
      · obtain ⟨s', h1, h2⟩ := run_start (a1 := a1) (t := t) hsr hs (p := p)
        exact ⟨s', happens_ext.mpr ⟨hcan.1, hcan.2, h1⟩, h2⟩
      · obtain ⟨s', h1, h2⟩ := run_bang (a1 := a1) (t := t) hsr hs
        exact ⟨s', happens_ext.mpr ⟨hcan.1, hcan.2, h1⟩, h2⟩
    | tick =>
      obtain ⟨m, hq⟩ := hs.queue
      cases hn : x.ends with
      | none => rw [hn] at hq; exact absurd hq hcan
      | some t =>
        rw [hn] at hq
        obtain ⟨s', h1, h2⟩ := run_tick (a1 := a1) hs hn (m := m)
        exact ⟨s', happens_tick.mpr ⟨_, _, hq, h1⟩, h2⟩

/-- **C86** what the generated code of `[tabwrite~ a1]` sends to its recorder, and when, after every history; the queue has the one message that
will stop the recording; it never gets stuck -/
theorem tabwrite_does {k : Nat} (hc : c.tabId a1 = some k) (hsr : 0 < c.sr) (M : Mach) (hM : Code a1 c M) (tab : Nat → List ℚ) :
    (∀ (es : List Ev) (_ : ∀ e ∈ es, Fits c e) (s : St), Runs M drv (start c (nodes a1) tab) es s →
      let x := es.foldl (Desk.on c tab) ⟨a1, none, [(0, WRITE, [.sym "stop"])]⟩
      s.log = x.sent ∧ s.q.map (·.time) = x.ends.toList) ∧
    (∃ s, Runs M drv (start c (nodes a1) tab) [] s) ∧
    ∀ (es : List Ev) (_ : ∀ e ∈ es, Fits c e) (s : St) (_ : Runs M drv (start c (nodes a1) tab) es s) (e : Ev), Fits c e → Can s e →
      ∃ s', Happens M drv e s s' := by
  have hs := to_code hM (fun _ => Fits.inlet) (sim hc hsr tab)
  refine ⟨fun es hf s h => ?_, hs.goes_on⟩
  have := (hs.runs hf h).1
  refine ⟨this.log, ?_⟩
  obtain ⟨m, hq⟩ := this.queue
  rw [hq]
  cases (es.foldl (Desk.on c tab) ⟨a1, none, [(0, WRITE, [.sym "stop"])]⟩).ends <;> rfl

/-! ### what the recorder makes of it -/
section recorder
variable {α : Type} [Zero α] {k other : Nat}
open Verif.Tab (Table STabwrite Made recN stopped)

/-- a message for the recorder -/
def heard (c : Ctx) (j : Nat) (m : Msg) : Nat × Tab.Msg :=
  if j = WRITE then (1, match m with
    | [.float q] => .float (.fin q)
    | [.sym "stop"] => .stop
    | _ => .other)
  else (2, match m with
    | [.sym n] => .table (c.tabId n)
    | _ => .other)

/-- the recorder (HvSignalTabwrite.c, `Verif.Tab.sTabwriteMsg`) gets messages one after the other -/
def obey (other : Nat) (c : Ctx) (W : STabwrite × List (Table α)) (l : List (Nat × Nat × Msg)) : Msg.R (STabwrite × List (Table α)) :=
  l.foldlM (fun W y => Tab.sTabwriteMsg other W.2 W.1 (heard c y.2.1 y.2.2).1 (heard c y.2.1 y.2.2).2) W

/-- what an event makes the patch send -/
def news (c : Ctx) (tab : Nat → List ℚ) (x : Desk) (e : Ev) : List (Nat × Nat × Msg) := (x.on c tab e).sent.drop x.sent.length

/-- the time of an event -/
def time (x : Desk) : Ev → Option Nat
  | .ext t _ _ => some t
  | .tick => x.ends

/-- the tables of the program and those of the context are the same; their memory is complete (F8) -/
structure Linked (k : Nat) (c : Ctx) (tab : Nat → List ℚ) (ts : List (Table α)) : Prop where
  made : ∀ T ∈ ts, Made k false T
  sizes : ∀ n i, c.tabId n = some i → ∃ T, ts[i]? = some T ∧ T.size = size c tab n

/-- a smaller table is not chosen while something is being recorded -/
def Polite (c : Ctx) (tab : Nat → List ℚ) (x : Desk) (o : STabwrite) (e : Ev) : Prop :=
  ∀ t i n, e = .ext t i [.sym "set", .sym n] → o.head = stopped ∨ size c tab x.name ≤ size c tab n

/-- the object, its recorder, the tables and the number of vectors of audio so far, from the start of the program.  The generated code
(Heavy_NAME.cpp, C08) deals with the events of the `2 ^ k` samples of a vector, those of the queue included, and then with the vector. -/
inductive Live (k other : Nat) (c : Ctx) (tab : Nat → List ℚ) (a1 : String) : Desk → STabwrite → List (Table α) → Nat → Prop
  | boot {i : Nat} {ts : List (Table α)} {W : STabwrite × List (Table α)} : Linked k c tab ts → c.tabId a1 = some i →
      obey other c (⟨some i, 0⟩, ts) [(0, WRITE, [.sym "stop"])] = .ok W →
      Live k other c tab a1 ⟨a1, none, [(0, WRITE, [.sym "stop"])]⟩ W.1 W.2 0
  | event {x : Desk} {o : STabwrite} {ts : List (Table α)} {b : Nat} {e : Ev} {t : Nat} {W : STabwrite × List (Table α)} :
      Live k other c tab a1 x o ts b → Fits c e → Polite c tab x o e → time x e = some t → t / 2 ^ k = b →
      obey other c (o, ts) (news c tab x e) = .ok W → Live k other c tab a1 (x.on c tab e) W.1 W.2 b
  | vector {x : Desk} {o : STabwrite} {ts : List (Table α)} {b : Nat} {v : List α} {W : STabwrite × List (Table α)} :
      Live k other c tab a1 x o ts b → (∀ e, x.ends = some e → b < e / 2 ^ k) → v.length = 2 ^ k →
      Tab.sTabwriteStoppable ts o v = .ok W → Live k other c tab a1 x W.1 W.2 (b + 1)

/-- the recording will be stopped in time -/
structure Inv (k : Nat) (c : Ctx) (tab : Nat → List ℚ) (x : Desk) (o : STabwrite) (ts : List (Table α)) (b : Nat) : Prop where
  link : Linked k c tab ts
  table : ∃ i, c.tabId x.name = some i ∧ o.table = some i
  head : o.head = stopped ∨ ∃ e, x.ends = some e ∧ (o.head + e < 2 ^ k * b + size c tab x.name + 2 ^ k ∨ e / 2 ^ k ≤ b)

theorem news_event {x : Desk} {e : Ev} (hf : Fits c e) {t : Nat} (ht : time x e = some t) :
    (∃ n, e = .ext t 0 [.sym "set", .sym n] ∧ (c.tabId n).isSome ∧ news c tab x e = [(t, TABLE, [.sym n])]) ∨
    (e = .ext t 0 [.sym "stop"] ∧ news c tab x e = [(t, WRITE, [.sym "stop"])]) ∨
    (∃ p, (e = .ext t 0 [.sym "start", .float p] ∨ e = .ext t 0 [.bang] ∧ p = 0) ∧ x.on c tab e = x.begin c tab t p ∧
      news c tab x e = [(t, WRITE, [.float p])]) ∨
    (e = .tick ∧ x.ends = some t ∧ news c tab x e = [(t, WRITE, [.sym "stop"])]) := by
  cases e with
  | tick =>
    have ht : x.ends = some t := ht
    exact .inr (.inr (.inr ⟨rfl, ht, by simp [news, Desk.on, ht]⟩))
  | ext t' i m =>
    cases ht
    obtain ⟨rfl, ⟨n, rfl, hn⟩ | rfl | ⟨p, rfl⟩ | rfl⟩ := hf
    · exact .inl ⟨n, rfl, hn, by simp [news, Desk.on]⟩
    · exact .inr (.inl ⟨rfl, by simp [news, Desk.on]⟩)
    · exact .inr (.inr (.inl ⟨p, .inl rfl, rfl, by simp [news, Desk.on, Desk.begin]⟩))
    · exact .inr (.inr (.inl ⟨0, .inr ⟨rfl, rfl⟩, rfl, by simp [news, Desk.on, Desk.begin]⟩))

theorem obey_one {o : STabwrite} {ts : List (Table α)} {t j : Nat} {m : Msg} :
    obey other c (o, ts) [(t, j, m)] = Tab.sTabwriteMsg other ts o (heard c j m).1 (heard c j m).2 := by
  simp only [obey, List.foldlM_cons, List.foldlM_nil, bind, Except.bind]
  split <;> simp_all [pure, Except.pure]

theorem obey_table {o : STabwrite} {ts : List (Table α)} {t : Nat} {n : String} :
    obey other c (o, ts) [(t, TABLE, [.sym n])] = .ok ({ o with table := c.tabId n }, ts) := by
  rw [obey_one]
  simp only [heard, if_neg (show ¬ TABLE = WRITE by decide)]
  rfl

theorem obey_stop {o : STabwrite} {ts : List (Table α)} {t : Nat} :
    obey other c (o, ts) [(t, WRITE, [.sym "stop"])] = .ok ({ o with head := stopped }, ts) := by
  rw [obey_one, heard, if_pos rfl]
  rfl

theorem obey_start {o : STabwrite} {ts : List (Table α)} {t : Nat} {p : ℚ} :
    obey other c (o, ts) [(t, WRITE, [.float p])] =
      .ok ({ o with head := if (Flt.fin p).geZero then (Flt.fin p).toU32 other else stopped }, ts) := by
  rw [obey_one, heard, if_pos rfl]
  rfl

theorem begin_in_time {t b : Nat} {S : Nat} {p : ℚ} (hb : t / 2 ^ k = b) (hbig : (S : ℚ) < 2 ^ 32) :
    (if (Flt.fin p).geZero then (Flt.fin p).toU32 other else stopped) = stopped ∨
    (if (Flt.fin p).geZero then (Flt.fin p).toU32 other else stopped) + (t + ⌊max 0 ((S : ℚ) - p)⌋.toNat) < 2 ^ k * b + S + 2 ^ k ∨
    (t + ⌊max 0 ((S : ℚ) - p)⌋.toNat) / 2 ^ k ≤ b := by
  have h0 : 0 < 2 ^ k := Nat.two_pow_pos k
  have h1 := Nat.div_add_mod t (2 ^ k)
  have h2 := Nat.mod_lt t h0
  rw [hb] at h1
  by_cases hp : 0 ≤ p
  · by_cases hS : p ≤ S
    · refine .inr (.inl ?_)
      have hfl : p.floor < 2 ^ 32 := Int.floor_lt.2 (lt_of_le_of_lt hS (by exact_mod_cast hbig))
      simp only [Flt.geZero, decide_eq_true hp, if_true, Flt.toU32]
      rw [if_pos ⟨hp, hfl⟩, max_eq_right (by linarith)]
      have h3 : ⌊p⌋ + ⌊(S : ℚ) - p⌋ ≤ S := by
        have a := Int.floor_le p
        have b := Int.floor_le ((S : ℚ) - p)
        have : ((⌊p⌋ + ⌊(S : ℚ) - p⌋ : ℤ) : ℚ) ≤ S := by push_cast; linarith
        exact_mod_cast this
      have h4 : 0 ≤ ⌊p⌋ := Int.floor_nonneg.2 hp
      have h5 : 0 ≤ ⌊(S : ℚ) - p⌋ := Int.floor_nonneg.2 (by linarith)
      have h6 : p.floor = ⌊p⌋ := rfl
      rw [h6]
      omega
    · refine .inr (.inr ?_)
      rw [max_eq_left (by linarith), Int.floor_zero]
      simp [hb]
  · refine .inl ?_
    simp only [Flt.geZero, decide_eq_false hp]
    rfl

theorem Inv.event (hk : k ≤ 28) {x : Desk} {o : STabwrite} {ts : List (Table α)} {b : Nat} (h : Inv k c tab x o ts b) {e : Ev} {t : Nat} (hf : Fits c e)
    (hp : Polite c tab x o e) (ht : time x e = some t) (hb : t / 2 ^ k = b) :
    ∃ W, obey other c (o, ts) (news c tab x e) = .ok W ∧ Inv k c tab (x.on c tab e) W.1 W.2 b := by
  obtain ⟨hl, ⟨i, hi, ho⟩, hh⟩ := h
  obtain ⟨n, rfl, hn, hw⟩ | ⟨rfl, hw⟩ | ⟨p, -, hx, hw⟩ | ⟨rfl, hx, hw⟩ := news_event (tab := tab) hf ht
  · rw [hw]
    obtain ⟨j, hj⟩ := Option.isSome_iff_exists.1 hn
    refine ⟨_, obey_table, hl, ⟨j, hj, hj⟩, ?_⟩
    rcases hh with hh | ⟨e, he, hh⟩
    · exact .inl hh
    rcases hp _ _ _ rfl with hp | hp
    · exact .inl hp
    refine .inr ⟨e, he, hh.imp_left fun hh => ?_⟩
    have : o.head + e < 2 ^ k * b + size c tab n + 2 ^ k := by omega
    exact this
  · rw [hw]
    exact ⟨_, obey_stop, hl, ⟨i, hi, ho⟩, .inl rfl⟩
  · rw [hw, hx]
    refine ⟨_, obey_start, hl, ⟨i, hi, ho⟩, ?_⟩
    have hbig : (size c tab x.name : ℚ) < 2 ^ 32 := by
      obtain ⟨T, hT, hs⟩ := hl.sizes _ _ hi
      have hok := ((Tab.made_get hl.made hT).ok hk).1
      have hal := hok.alloc
      have hsm := hok.small
      have : size c tab x.name < 2 ^ 32 := by
        have h0 : 0 < 2 ^ k := Nat.two_pow_pos k
        omega
      exact_mod_cast this
    rcases begin_in_time (other := other) (S := size c tab x.name) (p := p) hb hbig with h | h
    · exact .inl h
    · exact .inr ⟨_, rfl, h⟩
  · rw [hw]
    refine ⟨_, obey_stop, hl, ⟨i, by simpa [Desk.on, hx] using hi, ho⟩, .inl rfl⟩

theorem Linked.store {ts : List (Table α)} (hl : Linked k c tab ts) {i : Nat} {T : Table α} (hT : ts[i]? = some T) {buf : List α}
    (hb : buf.length = T.buf.length) : Linked k c tab (ts.set i { T with buf := buf }) where
  made T' hT' := by
    rcases List.mem_or_eq_of_mem_set hT' with h | rfl
    · exact hl.made _ h
    · exact Made.write (h := T.head) (Tab.made_get hl.made hT) hb
  sizes n j hj := by
    obtain ⟨T', hT', hs⟩ := hl.sizes n j hj
    by_cases hij : j = i
    · subst hij
      rw [hT] at hT'
      cases hT'
      exact ⟨{ T with buf := buf }, by rw [List.getElem?_set_self (List.getElem?_eq_some_iff.1 hT).1], hs⟩
    · exact ⟨T', by rw [List.getElem?_set_ne (Ne.symm hij), hT'], hs⟩

theorem Inv.vector (hk : k ≤ 28) {x : Desk} {o : STabwrite} {ts : List (Table α)} {b : Nat} (h : Inv k c tab x o ts b)
    (he : ∀ e, x.ends = some e → b < e / 2 ^ k) {v : List α} (hv : v.length = 2 ^ k) :
    ∃ W, Tab.sTabwriteStoppable ts o v = .ok W ∧ Inv k c tab x W.1 W.2 (b + 1) := by
  obtain ⟨hl, ⟨i, hi, ho⟩, hh⟩ := h
  have h0 : 0 < 2 ^ k := Nat.two_pow_pos k
  obtain ⟨T, hT, hs⟩ := hl.sizes _ _ hi
  obtain ⟨hok, hfull⟩ := (Tab.made_get hl.made hT).ok hk
  have hfu := (hfull rfl).full
  have hal := hok.alloc
  have hsm := hok.small
  by_cases hst : o.head = stopped
  · refine ⟨(o, ts), by simp only [Tab.sTabwriteStoppable, if_pos hst], hl, ⟨i, hi, ho⟩, .inl hst⟩
  obtain ⟨e, hxe, hh⟩ := hh.resolve_left hst
  have hlt := he e hxe
  have hh := hh.resolve_right (by omega)
  have hm : 2 ^ k * b + 2 ^ k ≤ e := by
    have h1 := Nat.div_mul_le_self e (2 ^ k)
    have h2 : (b + 1) * 2 ^ k ≤ e / 2 ^ k * 2 ^ k := Nat.mul_le_mul_right _ hlt
    rw [Nat.add_mul, Nat.one_mul, Nat.mul_comm] at h2
    omega
  have hfit : o.head + v.length ≤ T.buf.length := by omega
  obtain ⟨ot, oh⟩ := o
  simp only at ho hst hh hfit
  subst ho
  refine ⟨(⟨some i, (oh + v.length) % 2 ^ 32⟩, ts.set i { T with buf := T.buf.take oh ++ v ++ T.buf.drop (oh + v.length) }), ?_, ?_, ⟨i, hi, rfl⟩, ?_⟩
  · simp only [Tab.sTabwriteStoppable, if_neg hst, Tab.deref, hT, Tab.storeN, if_pos hfit, bind, Except.bind, Option.getD_some]
  · exact hl.store hT (by simp; omega)
  · refine .inr ⟨e, hxe, .inl ?_⟩
    show (oh + v.length) % 2 ^ 32 + e < 2 ^ k * (b + 1) + size c tab x.name + 2 ^ k
    rw [Nat.mod_eq_of_lt (by omega), Nat.mul_succ]
    omega

theorem Live.inv (hk : k ≤ 28) {x : Desk} {o : STabwrite} {ts : List (Table α)} {b : Nat} (h : Live k other c tab a1 x o ts b) : Inv k c tab x o ts b := by
  induction h with
  | boot hl hi h =>
    rw [obey_stop] at h
    cases h
    exact ⟨hl, ⟨_, hi, rfl⟩, .inl rfl⟩
  | event _ hf hp ht hb h ih =>
    obtain ⟨W, h1, h2⟩ := ih.event (other := other) hk hf hp ht hb
    rw [h] at h1
    cases h1
    exact h2
  | vector _ he hv h ih =>
    obtain ⟨W, h1, h2⟩ := ih.vector hk he hv
    rw [h] at h1
    cases h1
    exact h2

/-- **C86** whatever is sent and recorded, in every order (but a smaller table is not chosen while recording): nothing is ever written outside
the memory of the tables, the tables keep their sizes, and the recorder has the table chosen last -/
theorem tabwrite_safe (hk : k ≤ 28) {x : Desk} {o : STabwrite} {ts : List (Table α)} {b : Nat} (h : Live k other c tab a1 x o ts b) :
    (∀ v : List α, v.length = 2 ^ k → (∀ e, x.ends = some e → b < e / 2 ^ k) → ∃ W, Tab.sTabwriteStoppable ts o v = .ok W) ∧
    (∀ e t, Fits c e → Polite c tab x o e → time x e = some t → t / 2 ^ k = b → ∃ W, obey other c (o, ts) (news c tab x e) = .ok W) ∧
    Linked k c tab ts ∧ ∃ i, c.tabId x.name = some i ∧ o.table = some i := by
  have hi := h.inv hk
  refine ⟨fun v hv he => ?_, fun e t hf hp ht hb => ?_, hi.link, hi.table⟩
  · obtain ⟨W, h1, -⟩ := hi.vector hk he hv
    exact ⟨W, h1⟩
  · obtain ⟨W, h1, -⟩ := hi.event (other := other) hk hf hp ht hb
    exact ⟨W, h1⟩

/-- nothing more is recorded -/
theorem recN_stopped {ts : List (Table α)} {i : Option Nat} (bs : List (List α)) : recN ts bs ⟨i, stopped⟩ = .ok (⟨i, stopped⟩, ts) := by
  induction bs with
  | nil => rfl
  | cons b bs ih =>
    simp only [recN, Tab.sTabwriteStoppable, if_true, bind, Except.bind]
    exact ih

/-- **C86** a recording from sample `p` that begins at time `t` and is left alone: the vectors until the time `t + size - p` are stored one after the
other from `p` on and nothing else is changed; then the recorder is stopped and stores nothing more -/
theorem tabwrite_records (hk : k ≤ 28) {x : Desk} {o : STabwrite} {ts : List (Table α)} {b : Nat} (h : Live k other c tab a1 x o ts b)
    {t p : Nat} (hb : t / 2 ^ k = b) (hp : p ≤ size c tab x.name) {e : Ev}
    (he : e = .ext t 0 [.sym "start", .float p] ∨ e = .ext t 0 [.bang] ∧ p = 0)
    (ins more : List (List α)) (hins : ∀ v ∈ ins, v.length = 2 ^ k) (hn : ins.length = (t + (size c tab x.name - p)) / 2 ^ k - b) :
    ∃ i T o1, c.tabId x.name = some i ∧ ts[i]? = some T ∧ T.size = size c tab x.name ∧
      (x.on c tab e).ends = some (t + (size c tab x.name - p)) ∧
      obey other c (o, ts) (news c tab x e) = .ok (o1, ts) ∧
      (let ts' := ts.set i { T with buf := T.buf.take p ++ ins.flatten ++ T.buf.drop (p + 2 ^ k * ins.length) }
       ∃ o2 o3, recN ts ins o1 = .ok (o2, ts') ∧
        obey other c (o2, ts') (news c tab (x.on c tab e) .tick) = .ok (o3, ts') ∧
        recN ts' more o3 = .ok (o3, ts')) ∧
      2 ^ k * ins.length < size c tab x.name - p + 2 ^ k ∧ size c tab x.name - p < 2 ^ k * ins.length + 2 ^ k ∧
      (p % 2 ^ k = 0 → 2 ^ k * ins.length = size c tab x.name - p) := by
  obtain ⟨hl, ⟨i, hi, ho⟩, -⟩ := h.inv hk
  have h0 : 0 < 2 ^ k := Nat.two_pow_pos k
  obtain ⟨T, hT, hs⟩ := hl.sizes _ _ hi
  obtain ⟨hok, hfull⟩ := (Tab.made_get hl.made hT).ok hk
  have hfu := (hfull rfl).full
  have hal := hok.alloc
  have hsm := hok.small
  have hali := hok.align
  have hq : ⌊max 0 ((size c tab x.name : ℚ) - ((p : ℕ) : ℚ))⌋.toNat = size c tab x.name - p := by
    have : ((size c tab x.name : ℚ) - ((p : ℕ) : ℚ)) = ((size c tab x.name - p : ℕ) : ℚ) := by
      rw [Nat.cast_sub hp]
    rw [this, max_eq_right (Nat.cast_nonneg _), Int.floor_natCast]
    rfl
  have hx : x.on c tab e = x.begin c tab t ((p : ℕ) : ℚ) := by
    rcases he with rfl | ⟨rfl, rfl⟩
    · rfl
    · show x.begin c tab t 0 = x.begin c tab t ((0 : ℕ) : ℚ)
      rw [Nat.cast_zero]
  have hw : news c tab x e = [(t, WRITE, [.float ((p : ℕ) : ℚ)])] := by
    rw [news, hx]
    simp [Desk.begin]
  have hends : (x.on c tab e).ends = some (t + (size c tab x.name - p)) := by
    rw [hx]
    simp only [Desk.begin, hq]
  have hhead : (if (Flt.fin ((p : ℕ) : ℚ)).geZero then (Flt.fin ((p : ℕ) : ℚ)).toU32 other else stopped) = p := by
    have h1 : (0 : ℚ) ≤ ((p : ℕ) : ℚ) := Nat.cast_nonneg p
    have h2 : (((p : ℕ) : ℚ)).floor = (p : ℤ) := Int.floor_natCast (R := ℚ) p
    simp only [Flt.geZero, decide_eq_true h1, if_true, Flt.toU32, h2]
    rw [if_pos ⟨h1, by omega⟩]
    rfl
  have hst : obey other c (o, ts) (news c tab x e) = .ok (⟨some i, p⟩, ts) := by
    rw [hw, obey_start, hhead, ← ho]
  have hd1 := Nat.div_add_mod t (2 ^ k)
  have hd2 := Nat.mod_lt t h0
  have he1 := Nat.div_add_mod (t + (size c tab x.name - p)) (2 ^ k)
  have he2 := Nat.mod_lt (t + (size c tab x.name - p)) h0
  have hle : b ≤ (t + (size c tab x.name - p)) / 2 ^ k := by rw [← hb]; exact Nat.div_le_div_right (by omega)
  have hmul : 2 ^ k * ins.length + 2 ^ k * b = 2 ^ k * ((t + (size c tab x.name - p)) / 2 ^ k) := by
    rw [← Nat.mul_add, hn, Nat.sub_add_cancel hle]
  rw [hb] at hd1
  have hfit : p + 2 ^ k * ins.length ≤ T.buf.length := by omega
  have hrec := Tab.recN_go (N := 2 ^ k) ins hins ts i T hT (by omega) ⟨some i, p⟩ rfl hfit
  refine ⟨i, T, ⟨some i, p⟩, hi, hT, hs, hends, hst, ⟨⟨some i, p + 2 ^ k * ins.length⟩, ⟨some i, stopped⟩, hrec, ?_, recN_stopped more⟩, by omega, by omega, fun hpn => ?_⟩
  · have : news c tab (x.on c tab e) .tick = [(t + (size c tab x.name - p), WRITE, [.sym "stop"])] := by
      generalize x.on c tab e = z at hends ⊢
      simp [news, Desk.on, hends]
    rw [this, obey_stop]
  · have hdvd : 2 ^ k ∣ size c tab x.name - p := Nat.dvd_sub (Nat.dvd_of_mod_eq_zero (hs ▸ hali)) (Nat.dvd_of_mod_eq_zero hpn)
    obtain ⟨q, hq⟩ := hdvd
    rw [hq] at hn ⊢
    rw [hn, Nat.add_mul_div_left _ _ h0, hb, Nat.add_sub_cancel_left]

end recorder

/-! ### examples: arrays of 16 and 4 samples, vectors of 4 samples -/
def exCtx : Ctx := ⟨1000, fun n => if n = "big" then some 0 else if n = "small" then some 1 else none, fun _ x => x, fun x _ => x, 4⟩
def exTab : Nat → List ℚ := fun i => List.replicate (if i = 0 then 16 else 4) 0
def exBig : Tab.Table ℚ := { buf := List.replicate 20 0, length := 16, size := 16, allocated := 20, head := 0 }
def exSmall : Tab.Table ℚ := { buf := List.replicate 8 0, length := 4, size := 4, allocated := 8, head := 0 }

theorem ex_linked : Linked 2 exCtx exTab [exBig, exSmall] where
  made T hT := by
    rcases List.mem_cons.1 hT with rfl | hT
    · exact .init (junk := fun _ => 0) (n := 16) (by decide) (by decide +kernel)
    · obtain rfl : T = exSmall := by simpa using hT
      exact .init (junk := fun _ => 0) (n := 4) (by decide) (by decide +kernel)
  sizes n i h := by
    simp only [exCtx] at h
    split at h
    · rename_i hn; cases h; subst hn
      exact ⟨exBig, rfl, by decide +kernel⟩
    · split at h
      · rename_i hn; cases h; subst hn
        exact ⟨exSmall, rfl, by decide +kernel⟩
      · cases h

theorem ex_live : Live 2 0 exCtx exTab "big" ⟨"big", none, [(0, WRITE, [.sym "stop"])]⟩ ⟨some 0, Tab.stopped⟩ [exBig, exSmall] 0 :=
  .boot (i := 0) ex_linked rfl obey_stop

/-- `start 9` at time 2: until 2 + 16 - 9 = 9, so two vectors -/
example (v w : List ℚ) (hv : v.length = 4) (hw : w.length = 4) :
    ∃ i T o1 o2, [exBig, exSmall][i]? = some T ∧
      obey 0 exCtx (⟨some 0, Tab.stopped⟩, [exBig, exSmall]) [(2, WRITE, [.float 9])] = .ok (o1, [exBig, exSmall]) ∧
      Tab.recN [exBig, exSmall] [v, w] o1 = .ok (o2, [exBig, exSmall].set i { T with buf := T.buf.take 9 ++ (v ++ w) ++ T.buf.drop 17 }) := by
  have h : size exCtx exTab "big" = 16 := by decide +kernel
  obtain ⟨i, T, o1, -, h1, -, -, h2, ⟨o2, -, h3, -⟩, -⟩ := tabwrite_records (t := 2) (p := 9) (e := .ext 2 0 [.sym "start", .float ((9 : ℕ) : ℚ)]) (by omega) ex_live
    (by decide) (by decide +kernel) (.inl rfl) [v, w] [] (by simp [hv, hw]) (by rw [h]; norm_num)
  exact ⟨i, T, o1, o2, h1, h2, by simpa using h3⟩

/-- the messages and vectors of a recording: `some e` is an event, `none` a vector of ones -/
def session (c : Ctx) (tab : Nat → List ℚ) (n : Nat) (W : Tab.STabwrite × List (Tab.Table ℚ)) (x : Desk) : List (Option Ev) → Msg.R (Tab.STabwrite × List (Tab.Table ℚ))
  | [] => .ok W
  | some e :: l => do
    let W ← obey 0 c W (news c tab x e)
    session c tab n W (x.on c tab e) l
  | none :: l => do
    let W ← Tab.sTabwriteStoppable W.2 W.1 (List.replicate n 1)
    session c tab n W x l

/-- **C86** a smaller table chosen while recording: the third vector is stored behind the memory of the smaller one -/
theorem set_overruns : session exCtx exTab 4 (⟨some 0, Tab.stopped⟩, [exBig, exSmall]) ⟨"big", none, []⟩
    [some (.ext 0 0 [.bang]), none, none, some (.ext 8 0 [.sym "set", .sym "small"]), none] = .error .ub := by decide +kernel

/-- the same array of 4 samples, but it had 16 when the patch was loaded: the object still believes in 16 -/
theorem resized_overruns : session exCtx exTab 4 (⟨some 0, Tab.stopped⟩, [exSmall]) ⟨"big", none, []⟩
    [some (.ext 0 0 [.bang]), none, none, none] = .error .ub := by decide +kernel

/-- an array that has contents in the patch has memory for its samples only (F8): `start 1` stores behind it -/
theorem data_overruns : session exCtx exTab 4 (⟨some 0, Tab.stopped⟩, [exBig, { exSmall with buf := List.replicate 4 0 }]) ⟨"small", none, []⟩
    [some (.ext 0 0 [.sym "set", .sym "small"]), some (.ext 1 0 [.sym "start", .float 1]), none] = .error .ub := by decide +kernel

end TabwriteS
end Verif.Lib
