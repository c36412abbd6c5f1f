import Verif.Lib.Tabplay
import Verif.Props.SigTab4
import Verif.Props.TableSignal
/-!
# C85: `[tabplay~]`

The messages the patch sends to its player, and what the player makes of them.
-/
namespace Verif.Tab
open Verif.Msg (R Err assert)
variable {α : Type} [Zero α]

theorem playN_run {k : Nat} {ts : List (Table α)} {t : Nat} {T : Table α} (hT : ts[t]? = some T) (hsm : T.allocated < 2 ^ 30) {l : Nat} {a : Bool}
    (n h : Nat) (hl : ∀ j < n, h + 2 ^ k * j < l) (hb : h + 2 ^ k * n ≤ T.buf.length) (ha : h + 2 ^ k * n ≤ T.allocated) :
    playN k ts n ⟨some t, h, l, a, true⟩ = .ok (⟨some t, h + 2 ^ k * n, l, a, true⟩,
      (chunks (2 ^ k) n (T.buf.drop h)).map fun v => (v, false)) := by
  have h0 : 0 < 2 ^ k := Nat.two_pow_pos k
  induction n generalizing h with
  | zero => simp [playN, chunks]
  | succ n ih =>
    rw [Nat.mul_succ] at hb ha ⊢
    have h1 := hl 0 (by omega)
    rw [Nat.mul_zero, Nat.add_zero] at h1
    simp only [playN, stoppable_play hT (show h < T.allocated by omega) h1 (show h + 2 ^ k ≤ T.buf.length by omega) (by omega), bind,
      Except.bind]
    rw [ih _ (fun j hj => by have := hl (j + 1) (by omega); rw [Nat.mul_succ] at this; omega) (by omega) (by omega)]
    simp only [chunks, List.map_cons, List.drop_drop]
    rw [show h + 2 ^ k + 2 ^ k * n = h + (2 ^ k * n + 2 ^ k) by omega]

/-- the vectors that contain `n` samples -/
def vectors (N n : Nat) : Nat := (n + N - 1) / N

theorem vectors_spec {N : Nat} (hN : 0 < N) (n : Nat) : n ≤ N * vectors N n ∧ ∀ j < vectors N n, N * j < n := by
  unfold vectors
  have h := Nat.div_add_mod (n + N - 1) N
  have h2 := Nat.mod_lt (n + N - 1) hN
  refine ⟨by omega, fun j hj => ?_⟩
  have : N * j + N ≤ N * ((n + N - 1) / N) := by
    rw [← Nat.mul_succ]
    exact Nat.mul_le_mul_left _ hj
  omega

theorem vectors_le {N : Nat} (hN : 0 < N) {n m : Nat} (h : n ≤ m) (hm : m % N = 0) : N * vectors N n ≤ m := by
  obtain ⟨q, rfl⟩ := Nat.dvd_of_mod_eq_zero hm
  refine Nat.mul_le_mul_left _ ?_
  unfold vectors
  rw [Nat.div_le_iff_le_mul_add_pred hN]
  omega

/-- a player that is at `h`, on its way to `l`, inside the table: it plays the samples in whole vectors, then sends one bang and is silent -/
theorem playN_span {k : Nat} {ts : List (Table α)} {t : Nat} {T : Table α} (hT : ts[t]? = some T) (hok : Ok k T) {h l : Nat} {a : Bool}
    (hh : h % 2 ^ k = 0) (h1 : h ≤ T.size) (hl : l ≤ T.size) (extra : Nat) :
    ∃ o, playN k ts (vectors (2 ^ k) (l - h) + 1 + extra) ⟨some t, h, l, a, true⟩ = .ok (o,
      (chunks (2 ^ k) (vectors (2 ^ k) (l - h)) (T.buf.drop h)).map (fun v => (v, false)) ++
      [(List.replicate (2 ^ k) 0, true)] ++ List.replicate extra (List.replicate (2 ^ k) 0, false)) := by
  have h0 : 0 < 2 ^ k := Nat.two_pow_pos k
  have hal := hok.alloc
  have hsm := hok.small
  have hro := hok.room
  obtain ⟨v1, v2⟩ := vectors_spec h0 (l - h)
  have v3 : 2 ^ k * vectors (2 ^ k) (l - h) ≤ T.size - h := by
    refine vectors_le h0 (by omega) ?_
    have := hok.align
    rw [← Nat.dvd_iff_mod_eq_zero] at *
    exact Nat.dvd_sub this hh
  have hgo := playN_run (k := k) hT (by omega) (l := l) (a := a) (vectors (2 ^ k) (l - h)) h (fun j hj => by have := v2 j hj; omega) (by omega) (by omega)
  refine ⟨⟨some t, h + 2 ^ k * vectors (2 ^ k) (l - h), l, a, false⟩, ?_⟩
  rw [Nat.add_assoc, playN_add _ _ _ _ _ hgo, Nat.add_comm 1 extra]
  simp only [playN, stoppable_end hT (show h + 2 ^ k * vectors (2 ^ k) (l - h) < T.allocated by omega) (show l ≤ _ by omega), playN_silent hT, bind, Except.bind,
    Except.map]
  simp

theorem stoppable_over {k : Nat} {ts : List (Table α)} {t : Nat} {T : Table α} (hT : ts[t]? = some T) {h l : Nat} {a : Bool}
    (h1 : T.allocated ≤ h) :
    sTabreadStoppable k ts ⟨some t, h, l, a, true⟩ = .ok (⟨some t, h, l, a, false⟩, List.replicate (2 ^ k) 0, false) := by
  have hn : h ≥ T.allocated := h1
  simp only [sTabreadStoppable, deref, hT, bind, Except.bind, hn, if_true]
  rfl

/-- a player that is on its way to a place behind the table: it plays to the end and one vector more, and is silent without a bang -/
theorem playN_over {k : Nat} {ts : List (Table α)} {t : Nat} {T : Table α} (hT : ts[t]? = some T) (hok : Full k T) {h l : Nat} {a : Bool}
    (hh : h % 2 ^ k = 0) (h1 : h ≤ T.size) (hl : T.size < l) (extra : Nat) :
    ∃ o, playN k ts ((T.size - h) / 2 ^ k + 1 + extra) ⟨some t, h, l, a, true⟩ = .ok (o,
      (chunks (2 ^ k) ((T.size - h) / 2 ^ k + 1) (T.buf.drop h)).map (fun v => (v, false)) ++
      List.replicate extra (List.replicate (2 ^ k) 0, false)) := by
  have h0 : 0 < 2 ^ k := Nat.two_pow_pos k
  have hal := hok.alloc
  have hsm := hok.small
  have hfu := hok.full
  have hq : 2 ^ k * ((T.size - h) / 2 ^ k) = T.size - h := by
    refine Nat.mul_div_cancel' ?_
    have := hok.align
    rw [← Nat.dvd_iff_mod_eq_zero] at *
    exact Nat.dvd_sub this hh
  have hgo := playN_run (k := k) hT (by omega) (l := l) (a := a) ((T.size - h) / 2 ^ k + 1) h (fun j hj => by
    have : 2 ^ k * j ≤ 2 ^ k * ((T.size - h) / 2 ^ k) := Nat.mul_le_mul_left _ (by omega)
    omega) (by rw [Nat.mul_succ]; omega) (by rw [Nat.mul_succ]; omega)
  rw [playN_add _ _ _ _ _ hgo]
  cases extra with
  | zero => exact ⟨⟨some t, h + 2 ^ k * ((T.size - h) / 2 ^ k + 1), l, a, true⟩, by simp [playN, Except.map]⟩
  | succ e =>
    refine ⟨⟨some t, h + 2 ^ k * ((T.size - h) / 2 ^ k + 1), l, a, false⟩, ?_⟩
    simp only [playN, stoppable_over hT (show T.allocated ≤ h + 2 ^ k * ((T.size - h) / 2 ^ k + 1) by rw [Nat.mul_succ]; omega), playN_silent hT, bind, Except.bind,
      Except.map]
    simp [List.replicate_succ]

/-- the same, with a table whose memory ends at its size: the program reads behind it -/
theorem playN_over_ub {k : Nat} {ts : List (Table α)} {t : Nat} {T : Table α} (hT : ts[t]? = some T) (hok : Ok k T) (hb : T.buf.length < T.size + 2 ^ k)
    {h l : Nat} {a : Bool} (hh : h % 2 ^ k = 0) (h1 : h ≤ T.size) (hl : T.size < l) :
    playN k ts ((T.size - h) / 2 ^ k + 1) ⟨some t, h, l, a, true⟩ = .error .ub := by
  have h0 : 0 < 2 ^ k := Nat.two_pow_pos k
  have hal := hok.alloc
  have hsm := hok.small
  have hro := hok.room
  have hq : 2 ^ k * ((T.size - h) / 2 ^ k) = T.size - h := by
    refine Nat.mul_div_cancel' ?_
    have := hok.align
    rw [← Nat.dvd_iff_mod_eq_zero] at *
    exact Nat.dvd_sub this hh
  have hgo := playN_run (k := k) hT (by omega) (l := l) (a := a) ((T.size - h) / 2 ^ k) h (fun j hj => by
    have : 2 ^ k * j ≤ 2 ^ k * ((T.size - h) / 2 ^ k) := Nat.mul_le_mul_left _ (by omega)
    omega) (by omega) (by omega)
  rw [playN_add _ _ _ _ _ hgo]
  have e : h + 2 ^ k * ((T.size - h) / 2 ^ k) = T.size := by omega
  rw [e]
  have h2 : ¬ T.size ≥ T.allocated := by omega
  simp only [playN, sTabreadStoppable, deref, hT, bind, Except.bind, h2, if_false, Bool.not_true, Bool.false_eq_true]
  rw [if_pos (by omega)]
  simp only [loadN]
  rw [if_neg (by omega)]
  rfl

end Verif.Tab

namespace Verif.Lib
open Verif.Control (Dest Kind Cast Patch Act Sys Env Big)
open TabSet (entries step_size)

namespace Tabplay
variable {a1 : String} {c : Ctx} {s : St} {tab : Nat → List ℚ}

/-- the size of a table: its length rounded up to the SIMD width -/
def size (c : Ctx) (tab : Nat → List ℚ) (n : String) : ℕ := roundUp c.simd (entries c tab n).length

/-- a position inside the table -/
def place (c : Ctx) (tab : Nat → List ℚ) (n : String) (p : ℚ) : ℚ := min (max p 0) ((size c tab n : ℚ) - 1)

/-- the table chosen last and the position given last -/
structure Deck where
  name : String
  pos : Option ℚ

/-- the probes: messages for the inlets of the player -/
def PLAY : Nat := 2
def TABLE : Nat := 1
def LENGTH : Nat := 3

/-- what is sent to the player: `set` chooses a table; a number is restricted to the table and sent; a second number is sent as the length
after it; a bang sends the last number again and then the bang -/
def spec (c : Ctx) (tab : Nat → List ℚ) (a1 : String) : Reacts Deck where
  init := ⟨a1, none⟩
  on x _ _ m :=
    match m with
    | [.sym "set", .sym n] => ({ x with name := n }, [(TABLE, [.sym n])])
    | [.sym "stop"] => (x, [(PLAY, [.sym "stop"])])
    | [.bang] => (x, (x.pos.map fun p => (PLAY, [Atom.float (place c tab x.name p)])).toList ++ [(PLAY, [.bang])])
    | [.float p] => ({ x with pos := some p }, [(PLAY, [.float (place c tab x.name p)])])
    | [.float p, .float l] => ({ x with pos := some p }, [(PLAY, [.float (place c tab x.name p)]), (LENGTH, [.float l])])
    | _ => (x, [])

/-- the messages meant for it -/
def Fits (c : Ctx) : Ev → Prop
  | .ext _ i m => i = 0 ∧ ((∃ n, m = [.sym "set", .sym n] ∧ (c.tabId n).isSome) ∨ m = [.sym "stop"] ∨ m = [.bang] ∨ (∃ p, m = [.float p]) ∨
      ∃ p l, m = [.float p, .float l])
  | .tick => False

theorem Fits.inlet {e : Ev} (h : Fits c e) : Inlet e := by
  cases e with
  | ext t i m => obtain ⟨rfl, -⟩ := h; simp [Inlet]
  | tick => exact h.elim

/-- what the objects keep -/
structure Mem (c : Ctx) (tab : Nat → List ℚ) (x : Deck) (s : St) : Prop where
  name : s.mem 5 = [.sym x.name]
  lim : s.mem 13 = [.float ((size c tab x.name : ℚ) - 1)]
  pos : match x.pos with
    | none => ∃ n, s.mem 20 = [.sym n]
    | some p => s.mem 20 = [.float p]
  tabs : s.tab = tab

theorem bink_sym {op : Op} {q : ℚ} {o i : Nat} {n : String} : step c (.bink op q) o i [.sym n] s = (s, none) := by
  simp [step, binkStep]

theorem boot {k : Nat} (hc : c.tabId a1 = some k) (tab : Nat → List ℚ) :
    ∃ s, Ends (sys a1 c) [((19, 0), [.bang]), ((9, 0), [.bang])] (start c (nodes a1) tab) s ∧ Mem c tab ⟨a1, none⟩ s ∧ s.q = [] ∧ s.log = [] := by
  have h1 : (start c (nodes a1) tab).mem 5 = [.sym a1] := rfl
  have h2 : (start c (nodes a1) tab).q = [] := rfl
  have h3 : (start c (nodes a1) tab).log = [] := rfl
  have h4 : (start c (nodes a1) tab).tab = tab := rfl
  have h5 : (start c (nodes a1) tab).mem 20 = [.sym a1] := rfl
  refine ⟨?s1, (?h1 : Ends (sys a1 c) [((19, 0), [.bang]), ((9, 0), [.bang])] _ _), ?_⟩
  case h1 =>
    simp [lib_step, lib_tabplay, h1, h4, h5, step_size hc, Op.eval, bink_sym]
    rfl
  refine ⟨⟨?_, ?_, ?_, ?_⟩, ?_, ?_⟩
  all_goals simp [lib_step, h1, h2, h3, h4, h5, size, entries, hc]

theorem run_set {t : Nat} {x : Deck} (h : Mem c tab x s) {n : String} {k : Nat} (hc : c.tabId n = some k) :
    ∃ s', Ends (sys a1 c) [((0, 0), [.sym "set", .sym n])] { s with now := t } s' ∧ Mem c tab { x with name := n } s' ∧ s'.q = s.q ∧
      s'.log = s.log ++ [(t, TABLE, [.sym n])] := by
  obtain ⟨h1, h2, h3, h4⟩ := h
  refine ⟨?s1, (?h1 : Ends (sys a1 c) [((0, 0), [.sym "set", .sym n])] _ _), ?_⟩
  case h1 =>
    simp [lib_step, lib_tabplay, h1, h4, step_size hc, Op.eval, key, List.findIdx_cons]
    rfl
  refine ⟨⟨?_, ?_, ?_, ?_⟩, ?_, ?_⟩
  · simp [lib_step]
  · simp [lib_step, h4, size, entries, hc]
  · revert h3
    cases x.pos <;> simp [lib_step]
  · simp [lib_step, h4]
  · simp [lib_step]
  · simp [lib_step, TABLE]

theorem run_stop {t : Nat} {x : Deck} (h : Mem c tab x s) :
    ∃ s', Ends (sys a1 c) [((0, 0), [.sym "stop"])] { s with now := t } s' ∧ Mem c tab x s' ∧ s'.q = s.q ∧
      s'.log = s.log ++ [(t, PLAY, [.sym "stop"])] := by
  obtain ⟨h1, h2, h3, h4⟩ := h
  refine ⟨?s1, (?h1 : Ends (sys a1 c) [((0, 0), [.sym "stop"])] _ _), ?_⟩
  case h1 =>
    simp [lib_step, lib_tabplay, key, List.findIdx_cons]
    rfl
  exact ⟨⟨h1, h2, h3, h4⟩, rfl, rfl⟩

theorem run_float {t : Nat} {x : Deck} (h : Mem c tab x s) {p : ℚ} :
    ∃ s', Ends (sys a1 c) [((0, 0), [.float p])] { s with now := t } s' ∧ Mem c tab { x with pos := some p } s' ∧ s'.q = s.q ∧
      s'.log = s.log ++ [(t, PLAY, [.float (place c tab x.name p)])] := by
  obtain ⟨h1, h2, h3, h4⟩ := h
  refine ⟨?s1, (?h1 : Ends (sys a1 c) [((0, 0), [.float p])] _ _), ?_⟩
  case h1 =>
    simp [lib_step, lib_tabplay, h1, h2, h4, Op.eval, key, List.findIdx_cons]
    rfl
  refine ⟨⟨?_, ?_, ?_, ?_⟩, ?_, ?_⟩
  all_goals simp [lib_step, h1, h2, h4, PLAY, place]

theorem run_part {t : Nat} {x : Deck} (h : Mem c tab x s) {p l : ℚ} :
    ∃ s', Ends (sys a1 c) [((0, 0), [.float p, .float l])] { s with now := t } s' ∧ Mem c tab { x with pos := some p } s' ∧ s'.q = s.q ∧
      s'.log = s.log ++ [(t, PLAY, [.float (place c tab x.name p)]), (t, LENGTH, [.float l])] := by
  obtain ⟨h1, h2, h3, h4⟩ := h
  refine ⟨?s1, (?h1 : Ends (sys a1 c) [((0, 0), [.float p, .float l])] _ _), ?_⟩
  case h1 =>
    simp [lib_step, lib_tabplay, h1, h2, h4, Op.eval, key, List.findIdx_cons]
    rfl
  refine ⟨⟨?_, ?_, ?_, ?_⟩, ?_, ?_⟩
  all_goals simp [lib_step, h1, h2, h4, PLAY, LENGTH, place]

theorem run_bang {t : Nat} {x : Deck} (h : Mem c tab x s) :
    ∃ s', Ends (sys a1 c) [((0, 0), [.bang])] { s with now := t } s' ∧ Mem c tab x s' ∧ s'.q = s.q ∧
      s'.log = s.log ++ (((x.pos.map fun p => (PLAY, [Atom.float (place c tab x.name p)])).toList ++ [(PLAY, [Atom.bang])]).map fun y => (t, y)) := by
  obtain ⟨h1, h2, h3, h4⟩ := h
  cases hp : x.pos with
  | none =>
    rw [hp] at h3
    obtain ⟨n, h3⟩ := h3
    refine ⟨?s1, (?h1 : Ends (sys a1 c) [((0, 0), [.bang])] _ _), ?_⟩
    case h1 =>
      simp [lib_step, lib_tabplay, h1, h2, h3, h4, Op.eval, key, List.findIdx_cons, bink_sym]
      rfl
    refine ⟨⟨?_, ?_, ?_, ?_⟩, ?_, ?_⟩
    all_goals simp [lib_step, h1, h2, h3, h4, hp, PLAY]
  | some p =>
    rw [hp] at h3
    have h3 : s.mem 20 = [.float p] := h3
    refine ⟨?s2, (?h2 : Ends (sys a1 c) [((0, 0), [.bang])] _ _), ?_⟩
    case h2 =>
      simp [lib_step, lib_tabplay, h1, h2, h3, h4, Op.eval, key, List.findIdx_cons]
      rfl
    refine ⟨⟨?_, ?_, ?_, ?_⟩, ?_, ?_⟩
    all_goals simp [lib_step, h1, h2, h3, h4, hp, PLAY, place]

/-- **C85** what the generated code of `[tabplay~ a1]` sends to its player, after every history -/
theorem tabplay_does {k : Nat} (hc : c.tabId a1 = some k) (M : Mach) (hM : Code a1 c M) (tab : Nat → List ℚ) :
    Does M drv (start c (nodes a1) tab) (Fits c) (spec c tab a1) := by
  refine does_of_simulates (to_code hM (fun _ => Fits.inlet) (simulates_of_reacts (R := Mem c tab) ?_ ?_)) fun x s h => ⟨h.1.q, h.1.log⟩
  · obtain ⟨s, h1, h2, h3, h4⟩ := boot hc tab
    exact ⟨s, h1, h2, h3, h4⟩
  · intro x s t i m hr hq hf
    obtain ⟨rfl, ⟨n, rfl, hf⟩ | rfl | rfl | ⟨p, rfl⟩ | ⟨p, l, rfl⟩⟩ := hf
    · obtain ⟨k, hk⟩ := Option.isSome_iff_exists.1 hf
      obtain ⟨s', a, b, d, e⟩ := run_set (t := t) hr hk
      exact ⟨s', a, b, by rw [d, hq], e⟩
    · obtain ⟨s', a, b, d, e⟩ := run_stop (a1 := a1) (t := t) hr
      exact ⟨s', a, b, by rw [d, hq], e⟩
    · obtain ⟨s', a, b, d, e⟩ := run_bang (a1 := a1) (t := t) hr
      exact ⟨s', a, b, by rw [d, hq], e⟩
    · obtain ⟨s', a, b, d, e⟩ := run_float (a1 := a1) (t := t) (p := p) hr
      exact ⟨s', a, b, by rw [d, hq], e⟩
    · obtain ⟨s', a, b, d, e⟩ := run_part (a1 := a1) (t := t) (p := p) (l := l) hr
      exact ⟨s', a, b, by rw [d, hq], e⟩

/-! ### what the player makes of it -/
section player
variable {α : Type} [Zero α] {ts : List (Tab.Table α)} {k other : Nat}
open Verif.Tab (Table STabread Made vectors chunks playN)

/-- a message for the player -/
def heard (c : Ctx) (j : Nat) (m : Msg) : Nat × Tab.Msg :=
  if j = PLAY then (0, match m with
    | [.bang] => .bang
    | [.float q] => .float (.fin q)
    | [.sym "stop"] => .stop
    | _ => .other)
  else if j = TABLE then (1, match m with
    | [.sym n] => .table (c.tabId n)
    | _ => .other)
  else (2, match m with
    | [.float q] => .float (.fin q)
    | _ => .other)

/-- the player (HvSignalTabread.c, `Verif.Tab.sTabreadMsg`) gets messages one after the other -/
def obey (k other : Nat) (ts : List (Table α)) (c : Ctx) (o : STabread) (l : List (Nat × Msg)) : Msg.R STabread :=
  l.foldlM (fun o y => Tab.sTabreadMsg k other ts o (heard c y.1 y.2).1 (heard c y.1 y.2).2) o

/-- the tables of the program and those of the context are the same -/
structure Linked (k : Nat) (c : Ctx) (tab : Nat → List ℚ) (ts : List (Table α)) : Prop where
  width : c.simd = 2 ^ k
  made : ∀ T ∈ ts, Made k true T
  sizes : ∀ n i, c.tabId n = some i → ∃ T, ts[i]? = some T ∧ T.size = size c tab n

/-- the whole part of a number, at least 0, rounded down to whole vectors -/
def down (N : Nat) (q : ℚ) : Nat := ⌊q⌋.toNat / N * N

/-- where a message lets the player start and where it lets it stop -/
def span (c : Ctx) (tab : Nat → List ℚ) (x : Deck) : Msg → Option (Nat × Nat)
  | [.bang] => some (0, size c tab x.name)
  | [.float p] => some (down c.simd (place c tab x.name p), size c tab x.name)
  | [.float p, .float l] => some (down c.simd (place c tab x.name p), down c.simd (place c tab x.name p) + ⌊|l|⌋.toNat)
  | _ => none

omit [Zero α] in
theorem down_lt {N q n : ℕ} (h : n < q) : n / N * N < q := lt_of_le_of_lt (Nat.div_mul_le_self n N) h

theorem place_pos (hs : 0 < size c tab n) (p : ℚ) : 0 ≤ place c tab n p ∧ place c tab n p < size c tab n := by
  have : (1 : ℚ) ≤ size c tab n := by exact_mod_cast hs
  unfold place
  refine ⟨le_min (le_max_right _ _) (by linarith), lt_of_le_of_lt (min_le_right _ _) (by linarith)⟩

theorem abs_if (q : ℚ) : (if q < 0 then -q else q) = |q| := by
  split
  · rw [abs_of_neg (by assumption)]
  · rw [abs_of_nonneg (by linarith)]

theorem toU32_small {q : ℚ} (h : |q| < 2 ^ 32) (other : Nat) : ((Flt.fin q).abs).toU32 other = ⌊|q|⌋.toNat := by
  have h2 : (⌊|q|⌋ : ℤ) < 2 ^ 32 := Int.floor_lt.2 (by exact_mod_cast h)
  simp only [Flt.abs, Flt.toU32, abs_if]
  rw [if_pos ⟨abs_nonneg q, h2⟩]
  rfl

theorem aligned_down {n : Nat} (hk : k ≤ 28) (h : n < 2 ^ 32) : Tab.alignDown k n = n / 2 ^ k * 2 ^ k := by
  obtain ⟨h1, h2, h3⟩ := Tab.alignDown_spec k n (by omega) h
  have h0 : 0 < 2 ^ k := Nat.two_pow_pos k
  generalize Tab.alignDown k n = m at *
  generalize 2 ^ k = N at *
  obtain ⟨q, rfl⟩ := Nat.dvd_of_mod_eq_zero h3
  have : n / N = q := by
    refine Nat.div_eq_of_lt_le ?_ ?_
    · rw [Nat.mul_comm]; omega
    · rw [Nat.succ_mul, Nat.mul_comm]; omega
  rw [this, Nat.mul_comm]

omit [Zero α] in
theorem player_float (hk : k ≤ 28) {i : Nat} {T : Table α} (hT : ts[i]? = some T) (o : STabread) (ho : o.table = some i) (ha : o.aligned = true)
    {q : ℚ} (h0 : 0 ≤ q) (h1 : q < 2 ^ 32) :
    Tab.sTabreadMsg k other ts o 0 (.float (.fin q)) = .ok ⟨some i, down (2 ^ k) q, T.size, true, true⟩ := by
  have h2 : ¬ q < 0 := by linarith
  have h3 : |q| = q := abs_of_nonneg h0
  have h4 := toU32_small (q := q) (by rw [h3]; exact h1) other
  have h5 : (⌊q⌋ : ℤ) < 2 ^ 32 := Int.floor_lt.2 (by exact_mod_cast h1)
  obtain ⟨ot, oh, ol, oa, op⟩ := o
  simp only at ho ha
  subst ho ha
  simp only [Tab.sTabreadMsg, Tab.deref, hT, bind, Except.bind, h4, h3, Flt.ltZero, h2, down]
  rw [if_neg (by simp)]
  simp only [decide_false, Bool.false_eq_true, if_false, if_true]
  rw [aligned_down hk (by omega)]

/-- **C85** where the player starts and stops after a message -/
theorem tabplay_starts (hk : k ≤ 28) (hl : Linked k c tab ts) {x : Deck} {i : Nat} (hx : c.tabId x.name = some i) (hs : 0 < size c tab x.name)
    (o : STabread) (ho : o.table = some i) (ha : o.aligned = true) {m : Msg} {h e : Nat} (hm : span c tab x m = some (h, e)) (he : e < 2 ^ 32) (t : Nat) :
    obey k other ts c o ((spec c tab a1).on x t 0 m).2 = .ok ⟨some i, h, e, true, true⟩ := by
  obtain ⟨T, hT, hsz⟩ := hl.sizes _ _ hx
  have h0k : 0 < 2 ^ k := Nat.two_pow_pos k
  have hsm := ((Tab.made_get hl.made hT).ok hk).1.small
  have hal := ((Tab.made_get hl.made hT).ok hk).1.alloc
  have hpl : ∀ p, 0 ≤ place c tab x.name p ∧ place c tab x.name p < 2 ^ 32 := by
    intro p
    obtain ⟨a, b⟩ := place_pos hs p
    refine ⟨a, lt_trans b ?_⟩
    exact_mod_cast (show size c tab x.name < 2 ^ 32 by omega)
  have hf : ∀ (o : STabread), o.table = some i → o.aligned = true → ∀ p, Tab.sTabreadMsg k other ts o 0 (.float (.fin (place c tab x.name p))) =
      .ok ⟨some i, down (2 ^ k) (place c tab x.name p), T.size, true, true⟩ :=
    fun o ho ha p => player_float hk hT o ho ha (hpl p).1 (hpl p).2
  have hb : ∀ (o : STabread), o.table = some i → o.aligned = true → Tab.sTabreadMsg k other ts o 0 .bang = .ok ⟨some i, 0, T.size, true, true⟩ := by
    intro o ho ha
    obtain ⟨ot, oh, ol, oa, op⟩ := o
    simp only at ho ha
    subst ho ha
    simp only [Tab.sTabreadMsg, Tab.deref, hT, bind, Except.bind]
    rw [if_neg (by simp)]
  unfold span at hm
  split at hm
  · cases hm
    cases hp : x.pos with
    | none => simp [spec, obey, heard, hp, hb o ho ha, hsz]
    | some p =>
      simp only [spec, obey, heard, hp, Option.map_some, Option.toList_some, List.cons_append, List.nil_append, List.foldlM_cons, List.foldlM_nil,
        if_true, hf o ho ha p, bind, Except.bind]
      rw [hb _ rfl rfl, ← hsz]
      rfl
  · rename_i p
    cases hm
    simp [spec, obey, heard, hf o ho ha p, hsz, hl.width]
  · rename_i p l
    cases hm
    have hll : |l| < 2 ^ 32 := by
      have h1 := Int.lt_floor_add_one |l|
      have h2 : (0 : ℤ) ≤ ⌊|l|⌋ := Int.floor_nonneg.2 (abs_nonneg l)
      have h3 : ⌊|l|⌋ + 1 ≤ 2 ^ 32 := by omega
      have : ((⌊|l|⌋ + 1 : ℤ) : ℚ) ≤ 2 ^ 32 := by exact_mod_cast h3
      push_cast at this
      linarith
    rw [hl.width] at he ⊢
    simp only [spec, obey, heard, List.foldlM_cons, List.foldlM_nil, if_true, hf o ho ha p, bind, Except.bind]
    rw [if_neg (show ¬ LENGTH = PLAY by decide), if_neg (show ¬ LENGTH = TABLE by decide)]
    simp only [Tab.sTabreadMsg, toU32_small hll, Nat.mod_eq_of_lt he]
    rfl
  · cases hm

theorem span_start {x : Deck} (hl : Linked k c tab ts) (hs : 0 < size c tab x.name) {m : Msg} {h e : Nat} (hm : span c tab x m = some (h, e)) :
    h % 2 ^ k = 0 ∧ h ≤ size c tab x.name := by
  have hd : ∀ p, down c.simd (place c tab x.name p) % 2 ^ k = 0 ∧ down c.simd (place c tab x.name p) ≤ size c tab x.name := by
    intro p
    refine ⟨by rw [hl.width]; exact Nat.mul_mod_left _ _, ?_⟩
    obtain ⟨a, b⟩ := place_pos hs p
    have h2 : ⌊place c tab x.name p⌋ < size c tab x.name := Int.floor_lt.2 (by exact_mod_cast b)
    have h3 := Nat.div_mul_le_self ⌊place c tab x.name p⌋.toNat c.simd
    unfold down
    omega
  unfold span at hm
  split at hm
  · cases hm; exact ⟨Nat.zero_mod _, Nat.zero_le _⟩
  · cases hm; exact hd _
  · cases hm; exact hd _
  · cases hm

/-- **C85** a note: the messages of the patch let the player play the table from the place asked for, in whole vectors; then it sends one bang
and is silent, for any number of vectors -/
theorem tabplay_plays (hk : k ≤ 28) (hl : Linked k c tab ts) {x : Deck} {i : Nat} (hx : c.tabId x.name = some i) (hs : 0 < size c tab x.name)
    {T : Table α} (hT : ts[i]? = some T)
    (o : STabread) (ho : o.table = some i) (ha : o.aligned = true) {m : Msg} {h e : Nat} (hm : span c tab x m = some (h, e))
    (he : e ≤ size c tab x.name) (t extra : Nat) :
    ∃ o1 o2, obey k other ts c o ((spec c tab a1).on x t 0 m).2 = .ok o1 ∧
      playN k ts (vectors (2 ^ k) (e - h) + 1 + extra) o1 = .ok (o2,
        (chunks (2 ^ k) (vectors (2 ^ k) (e - h)) (T.buf.drop h)).map (fun v => (v, false)) ++
        [(List.replicate (2 ^ k) 0, true)] ++ List.replicate extra (List.replicate (2 ^ k) 0, false)) := by
  obtain ⟨T', hT', hsz⟩ := hl.sizes _ _ hx
  rw [hT] at hT'
  cases hT'
  have hok := ((Tab.made_get hl.made hT).ok hk).1
  have h0k : 0 < 2 ^ k := Nat.two_pow_pos k
  have hsm := hok.small
  have hal := hok.alloc
  have hst := tabplay_starts (a1 := a1) (other := other) hk hl hx hs o ho ha hm (by omega) t
  have hh := span_start hl hs hm
  obtain ⟨o2, h2⟩ := Tab.playN_span (k := k) hT hok (a := true) hh.1 (by omega) (by omega : e ≤ T.size) extra
  exact ⟨_, o2, hst, h2⟩

/-- **C85** a length that reaches beyond the table: the player plays to the end of the table and one vector more, is silent, and sends no bang -/
theorem tabplay_plays_over (hk : k ≤ 28) (hl : Linked k c tab ts) {x : Deck} {i : Nat} (hx : c.tabId x.name = some i) (hs : 0 < size c tab x.name)
    {T : Table α} (hT : ts[i]? = some T) (hown : Made k false T)
    (o : STabread) (ho : o.table = some i) (ha : o.aligned = true) {m : Msg} {h e : Nat} (hm : span c tab x m = some (h, e))
    (he : size c tab x.name < e) (he2 : e < 2 ^ 32) (t extra : Nat) :
    ∃ o1 o2, obey k other ts c o ((spec c tab a1).on x t 0 m).2 = .ok o1 ∧
      playN k ts ((T.size - h) / 2 ^ k + 1 + extra) o1 = .ok (o2,
        (chunks (2 ^ k) ((T.size - h) / 2 ^ k + 1) (T.buf.drop h)).map (fun v => (v, false)) ++
        List.replicate extra (List.replicate (2 ^ k) 0, false)) := by
  obtain ⟨T', hT', hsz⟩ := hl.sizes _ _ hx
  rw [hT] at hT'
  cases hT'
  have hst := tabplay_starts (a1 := a1) (other := other) hk hl hx hs o ho ha hm he2 t
  obtain ⟨h1, h2⟩ := span_start hl hs hm
  obtain ⟨o2, h2⟩ := Tab.playN_over (k := k) hT ((hown.ok hk).2 rfl) (a := true) h1 (by omega) (by omega : T.size < e) extra
  exact ⟨_, o2, hst, h2⟩

/-- **C85** the same, with an array that has contents in the patch: the program reads behind the memory of the array -/
theorem tabplay_overreads (hk : k ≤ 28) (hl : Linked k c tab ts) {x : Deck} {i : Nat} (hx : c.tabId x.name = some i) (hs : 0 < size c tab x.name)
    {T : Table α} (hT : ts[i]? = some T) {junk : Nat → α} {data : List α} (hdata : Tab.initWithData k junk data = .ok T) (hd : data.length + 2 * 2 ^ k < 2 ^ 30)
    (o : STabread) (ho : o.table = some i) (ha : o.aligned = true) {m : Msg} {h e : Nat} (hm : span c tab x m = some (h, e))
    (he : size c tab x.name < e) (he2 : e < 2 ^ 32) (t : Nat) :
    ∃ o1, obey k other ts c o ((spec c tab a1).on x t 0 m).2 = .ok o1 ∧
      playN k ts ((T.size - h) / 2 ^ k + 1) o1 = .error .ub := by
  obtain ⟨T', hT', hsz⟩ := hl.sizes _ _ hx
  rw [hT] at hT'
  cases hT'
  have hst := tabplay_starts (a1 := a1) (other := other) hk hl hx hs o ho ha hm he2 t
  obtain ⟨h1, h2⟩ := span_start hl hs hm
  have h0 : 0 < 2 ^ k := Nat.two_pow_pos k
  obtain ⟨T', e1, h3, -, h5, h4⟩ := Tab.initWithData_spec hk junk data hd
  rw [hdata] at e1
  cases e1
  have hup := (Tab.up_spec k data.length (by omega) (by omega)).1
  have h4 : T.buf.length = T.size := by rw [h4, h5, List.length_append, List.length_replicate]; omega
  exact ⟨_, hst, Tab.playN_over_ub (k := k) hT h3 (by omega) (a := true) h1 (by omega) (by omega : T.size < e)⟩

/-- **C85** `stop` ends the sound at once, without a bang -/
theorem tabplay_stops (hl : Linked k c tab ts) {x : Deck} {i : Nat} (hx : c.tabId x.name = some i)
    (o : STabread) (ho : o.table = some i) (t n : Nat) :
    ∃ o1, obey k other ts c o ((spec c tab a1).on x t 0 [.sym "stop"]).2 = .ok o1 ∧
      playN k ts n o1 = .ok (o1, List.replicate n (List.replicate (2 ^ k) 0, false)) := by
  obtain ⟨T, hT, hsz⟩ := hl.sizes _ _ hx
  obtain ⟨ot, oh, ol, oa, op⟩ := o
  simp only at ho
  subst ho
  refine ⟨⟨some i, 0, T.size, oa, false⟩, ?_, Tab.playN_silent hT n⟩
  simp only [spec, obey, heard, List.foldlM_cons, List.foldlM_nil, if_true, bind, Except.bind, Tab.sTabreadMsg, Tab.deref, hT]
  rw [if_neg (by simp)]
  rfl

/-- **C85** `set` gives the player another table: it is at the beginning of it, and goes on playing if it was -/
theorem tabplay_sets (hl : Linked k c tab ts) {x : Deck} {n : String} {j : Nat} (hn : c.tabId n = some j) (o : STabread) (t : Nat) :
    obey k other ts c o ((spec c tab a1).on x t 0 [.sym "set", .sym n]).2 = .ok ⟨some j, 0, size c tab n, o.aligned, o.playing⟩ := by
  obtain ⟨T, hT, hsz⟩ := hl.sizes _ _ hn
  obtain ⟨ot, oh, ol, oa, op⟩ := o
  simp only [spec, obey, heard, List.foldlM_cons, List.foldlM_nil, bind, Except.bind]
  rw [if_neg (show ¬ TABLE = PLAY by decide)]
  simp only [if_true, Tab.sTabreadMsg, Tab.deref, hn, hT, bind, Except.bind, hsz]
  rfl

/-- the object and its player after some messages and some vectors of audio, from the start of the program -/
inductive Live (k other : Nat) (c : Ctx) (tab : Nat → List ℚ) (ts : List (Table α)) (a1 : String) : Deck → STabread → Prop
  | boot {i : Nat} {T : Table α} : c.tabId a1 = some i → ts[i]? = some T → Live k other c tab ts a1 (spec c tab a1).init (Tab.sTabreadInit T i true)
  | msg {x : Deck} {o o' : STabread} {t : Nat} {m : Msg} : Live k other c tab ts a1 x o → Fits c (.ext t 0 m) →
      obey k other ts c o ((spec c tab a1).on x t 0 m).2 = .ok o' → Live k other c tab ts a1 ((spec c tab a1).on x t 0 m).1 o'
  | vector {x : Deck} {o o' : STabread} {v : List α} {b : Bool} : Live k other c tab ts a1 x o →
      Tab.sTabreadStoppable k ts o = .ok (o', v, b) → Live k other c tab ts a1 x o'

theorem stoppable_keeps {o o' : STabread} {v : List α} {b : Bool} (h : Tab.sTabreadStoppable k ts o = .ok (o', v, b)) :
    o'.table = o.table ∧ o'.aligned = o.aligned := by
  simp only [Tab.sTabreadStoppable, bind, Except.bind] at h
  split at h
  · cases h
  · rename_i T _
    generalize ho : (if o.head ≥ T.allocated then _ else _ : STabread) = o1 at h
    have h1 : o1.table = o.table ∧ o1.aligned = o.aligned := by
      rw [← ho]; split <;> exact ⟨rfl, rfl⟩
    split at h
    · cases h; exact h1
    · split at h
      · split at h
        · cases h
        · cases h; exact h1
      · cases h; exact h1

omit [Zero α] in
theorem sMsg_keeps {o o' : STabread} {m : Tab.Msg} {l : Nat} (h : Tab.sTabreadMsg k other ts o l m = .ok o') :
    (l ≠ 1 → o'.table = o.table) ∧ o'.aligned = o.aligned := by
  unfold Tab.sTabreadMsg at h
  split at h
  · split at h
    · cases h; exact ⟨fun _ => rfl, rfl⟩
    · simp only [bind, Except.bind] at h
      split at h
      · cases h
      · split at h <;> cases h <;> exact ⟨fun _ => rfl, rfl⟩
  · split at h
    · simp only [bind, Except.bind] at h
      split at h
      · cases h
      · cases h; exact ⟨fun h => absurd rfl h, rfl⟩
    · cases h; exact ⟨fun _ => rfl, rfl⟩
  · split at h <;> cases h <;> exact ⟨fun _ => rfl, rfl⟩
  · cases h; exact ⟨fun _ => rfl, rfl⟩

/-- **C85** whatever was sent before and however much was played: the player has the table that was chosen last -/
theorem tabplay_live (hl : Linked k c tab ts) {x : Deck} {o : STabread} (h : Live k other c tab ts a1 x o) :
    (∃ i, c.tabId x.name = some i ∧ o.table = some i) ∧ o.aligned = true := by
  induction h with
  | boot h1 h2 => exact ⟨⟨_, h1, rfl⟩, rfl⟩
  | @vector x o o' v b _ h ih =>
    obtain ⟨h1, h2⟩ := stoppable_keeps h
    rw [h1, h2]; exact ih
  | @msg x o o' t m _ hf h ih =>
    obtain ⟨⟨i, hi, ho⟩, ha⟩ := ih
    obtain ⟨-, ⟨n, rfl, hf⟩ | rfl | rfl | ⟨p, rfl⟩ | ⟨p, l, rfl⟩⟩ := hf
    · obtain ⟨j, hj⟩ := Option.isSome_iff_exists.1 hf
      rw [tabplay_sets hl hj] at h
      cases h
      exact ⟨⟨j, hj, rfl⟩, ha⟩
    all_goals
      have hk : o'.table = o.table ∧ o'.aligned = o.aligned := by
        revert h
        simp only [spec, obey, heard]
        try cases x.pos
        all_goals
          simp only [Option.map_some, Option.toList_some, Option.map_none, Option.toList_none, List.cons_append, List.nil_append, List.foldlM_cons, List.foldlM_nil, if_true, bind, Except.bind]
          try rw [if_neg (show ¬ LENGTH = PLAY by decide), if_neg (show ¬ LENGTH = TABLE by decide)]
          intro h
          split at h
          · cases h
          · rename_i o1 h1
            obtain ⟨a, b⟩ := sMsg_keeps h1
            first
              | cases h
                exact ⟨a (by decide), b⟩
              | split at h
                · cases h
                · rename_i o2 h2
                  obtain ⟨a', b'⟩ := sMsg_keeps h2
                  cases h
                  exact ⟨(a' (by simp)).trans (a (by simp)), b'.trans b⟩
      exact ⟨⟨i, by simpa [spec] using hi, by rw [hk.1, ho]⟩, by rw [hk.2, ha]⟩

end player

/-! ### an example: an array of 8 samples with contents, vectors of 4 samples -/
def exCtx : Ctx := ⟨44100, fun n => if n = "arr" then some 0 else none, fun _ x => x, fun x _ => x, 4⟩
def exTab : Nat → List ℚ := fun _ => [1, 2, 3, 4, 5, 6, 7, 8]
def exT : Tab.Table ℚ := { buf := [1, 2, 3, 4, 5, 6, 7, 8], length := 8, size := 8, allocated := 12, head := 0 }

theorem ex_linked : Linked 2 exCtx exTab [exT] where
  width := rfl
  made T hT := by
    obtain rfl : T = exT := by simpa using hT
    exact .data (junk := fun _ => 0) (data := exTab 0) rfl (by decide) (by decide +kernel)
  sizes n i h := by
    have hn : n = "arr" ∧ i = 0 := by
      simp only [exCtx] at h
      split at h
      · rename_i hn; cases h; exact ⟨hn, rfl⟩
      · cases h
    obtain ⟨rfl, rfl⟩ := hn
    exact ⟨exT, rfl, by decide +kernel⟩

/-- the numbers `6 2`: from sample 4 (6 rounded down to whole vectors) 2 samples, so one vector -/
example : ∃ o1 o2, obey 2 0 [exT] exCtx (Tab.sTabreadInit exT 0 true) ((spec exCtx exTab "arr").on ⟨"arr", none⟩ 0 0 [.float 6, .float 2]).2 = .ok o1 ∧
    Tab.playN 2 [exT] 3 o1 = .ok (o2, [([5, 6, 7, 8], false), ([0, 0, 0, 0], true), ([0, 0, 0, 0], false)]) := by
  have h : span exCtx exTab ⟨"arr", none⟩ [.float 6, .float 2] = some (4, 6) := by
    have h1 : place exCtx exTab "arr" 6 = 6 := by
      have : size exCtx exTab "arr" = 8 := by decide +kernel
      simp only [place, this]; norm_num
    simp only [span, h1, down]
    norm_num [exCtx]
    decide
  have := tabplay_plays (a1 := "arr") (other := 0) (by omega) ex_linked (x := ⟨"arr", none⟩) (i := 0) rfl (by decide +kernel) rfl
    (Tab.sTabreadInit exT 0 true) rfl rfl h (by decide +kernel) 0 1
  exact this

end Tabplay
end Verif.Lib
