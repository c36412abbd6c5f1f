import Verif.Lib
/-!
Running a list of calls: `Ends S l s s'` says that the calls `l`, made one after the other in the state `s`, end in the state `s'`.
The rules `lib_step` evaluate it.
-/
namespace Verif.Lib
open Verif.Control (Dest Kind Cast Patch Act Sys Env Big)

variable {S : Sys St Msg}

abbrev Calls := List (Dest × Msg)

/-- the calls end in a state -/
def Ends (S : Sys St Msg) (l : Calls) (s s' : St) : Prop := ∃ t, Big S (.all l) s s' t

/-- one call to a node of a given kind, then others -/
def EndsN (S : Sys St Msg) (o : Nat) (l : Calls) (s s' : St) : Control.Node St Msg → Prop
  | .fwd _ l' => Ends S (l' ++ l) s s'
  | .obj a => ∃ s1 t, Big S (.act o a) s s1 t ∧ Ends S l s1 s'

@[lib_step] theorem ends_nil {s s' : St} : Ends S [] s s' ↔ s' = s := by
  constructor
  · rintro ⟨t, h⟩
    cases h
    rfl
  · rintro rfl
    exact ⟨[], .nil⟩

theorem ends_append {l l' : Calls} {s s' : St} : Ends S (l ++ l') s s' ↔ ∃ s1, Ends S l s s1 ∧ Ends S l' s1 s' := by
  constructor
  · rintro ⟨t, h⟩
    obtain ⟨s1, t1, t2, -, h1, h2⟩ := Control.big_append_inv h
    exact ⟨s1, ⟨t1, h1⟩, ⟨t2, h2⟩⟩
  · rintro ⟨s1, ⟨t1, h1⟩, ⟨t2, h2⟩⟩
    exact ⟨_, Control.big_append h1 h2⟩

@[lib_step] theorem ends_cons {d : Dest} {m : Msg} {l : Calls} {s s' : St} :
    Ends S ((d, m) :: l) s s' ↔ EndsN S d.1 l s s' (S.node d m) := by
  constructor
  · rintro ⟨t, h⟩
    cases h with
    | cons h1 h2 =>
      cases h1 with
      | obj hn h => rw [show S.node d m = _ from hn]; exact ⟨_, _, h, _, h2⟩
      | fwd hn h => rw [show S.node d m = _ from hn]; exact ends_append.mpr ⟨_, ⟨_, h⟩, ⟨_, h2⟩⟩
  · intro h
    cases hn : S.node d m with
    | fwd v l' =>
      rw [hn] at h
      obtain ⟨s1, ⟨t1, h1⟩, ⟨t2, h2⟩⟩ := ends_append.mp h
      exact ⟨_, .cons (.fwd (x := (d, m)) hn h1) h2⟩
    | obj a =>
      rw [hn] at h
      obtain ⟨s1, t1, h1, ⟨t2, h2⟩⟩ := h
      exact ⟨_, .cons (.obj (x := (d, m)) hn h1) h2⟩

@[lib_step] theorem endsN_fwd {o : Nat} {v : Bool} {l l' : Calls} {s s' : St} :
    EndsN S o l s s' (.fwd v l') ↔ Ends S (l' ++ l) s s' := Iff.rfl

/-- the messages that an object sends -/
def sends (S : Sys St Msg) (o : Nat) : Option (Nat × Msg) → Calls
  | none => []
  | some (k, m) => (S.out o k).map (·, m)

@[lib_step] theorem sends_none {o : Nat} : sends S o none = [] := rfl
@[lib_step] theorem sends_some {o k : Nat} {m : Msg} : sends S o (some (k, m)) = (S.out o k).map (·, m) := rfl

/-- what is left after an object has acted -/
def After (S : Sys St Msg) (o : Nat) (l : Calls) (r : Res) (s' : St) : Prop := Ends S (sends S o r.2 ++ l) r.1 s'

@[lib_step] theorem after_mk {o : Nat} {l : Calls} {s s' : St} {r : Option (Nat × Msg)} :
    After S o l (s, r) s' ↔ Ends S (sends S o r ++ l) s s' := Iff.rfl

@[lib_step] theorem endsN_obj {o i : Nat} {c : Ctx} {k : Cls} {m : Msg} {l : Calls} {s s' : St} :
    EndsN S o l s s' (.obj (beh c k o i m)) ↔ After S o l (step c k o i m s) s' := by
  unfold After
  generalize hr : step c k o i m s = r
  constructor
  · rintro ⟨s1, t, h, h2⟩
    refine ends_append.mpr ⟨s1, ?_, h2⟩
    cases h with
    | get h =>
      cases h with
      | set h =>
        rw [hr] at h
        cases hs : r.2 with
        | none =>
          rw [hs] at h
          cases h
          exact ends_nil.mpr rfl
        | some p =>
          rw [hs] at h
          cases h with
          | send h h' =>
            cases h'
            exact ⟨_, h⟩
  · intro h
    obtain ⟨s1, ⟨t, h1⟩, h2⟩ := ends_append.mp h
    cases hs : r.2 with
    | none =>
      rw [hs] at h1
      cases h1
      exact ⟨_, _, .get (.set (by rw [hr, hs]; exact .done)), h2⟩
    | some p =>
      rw [hs] at h1
      exact ⟨_, _, .get (.set (by rw [hr, hs]; exact .send h1 .done)), h2⟩

/-! ## casts -/

@[lib_step] theorem castNode_bang {ds : List Dest} {m : Msg} : castNode .bang ds m = .fwd false (ds.map (·, [.bang])) := rfl
@[lib_step] theorem castNode_float {ds : List Dest} {q : ℚ} {m : Msg} :
    castNode .float ds (.float q :: m) = .fwd false (ds.map (·, [.float q])) := rfl
@[lib_step] theorem castTo_bang {ds : List Dest} {m : Msg} : castTo .bang ds m = ds.map (·, [.bang]) := rfl
@[lib_step] theorem castTo_float {ds : List Dest} {q : ℚ} {m : Msg} :
    castTo .float ds (.float q :: m) = ds.map (·, [.float q]) := rfl
@[lib_step] theorem castTo_symbol {ds : List Dest} {x : String} {m : Msg} :
    castTo .symbol ds (.sym x :: m) = ds.map (·, .sym x :: m) := rfl

/-! ## objects -/

section
variable {c : Ctx} {o : Nat} {s : St} {m : Msg}

@[lib_step] theorem step_none {i : Nat} : step c .none o i m s = (s, none) := rfl
@[lib_step] theorem step_print {i : Nat} : step c .print o i m s = (s, none) := rfl
@[lib_step] theorem step_probe {i k : Nat} : step c (.probe k) o i m s = ({ s with log := s.log ++ [(s.now, k, m)] }, none) := rfl
@[lib_step] theorem step_msg {i : Nat} {l : List Elem} : step c (.msg l) o i m s = (s, some (0, l.map (Elem.fill m))) := rfl
@[lib_step] theorem fill_lit {a : Atom} : Elem.fill m (.lit a) = a := rfl
@[lib_step] theorem fill_arg {n : Nat} : Elem.fill m (.arg n) = m.getD n .bang := rfl
@[lib_step] theorem getD_zero {a b : Atom} : (a :: m).getD 0 b = a := rfl
@[lib_step] theorem getD_one {a a' b : Atom} : (a :: a' :: m).getD 1 b = a' := rfl
@[lib_step] theorem getD_two {a a' a'' b : Atom} : (a :: a' :: a'' :: m).getD 2 b = a'' := rfl

@[lib_step] theorem step_var_bang {a : Atom} : step c (.var a) o 0 (.bang :: m) s = (s, some (0, s.mem o)) := rfl
@[lib_step] theorem step_var_float {a : Atom} {q : ℚ} :
    step c (.var a) o 0 (.float q :: m) s = (s.set o [.float q], some (0, .float q :: m)) := rfl
@[lib_step] theorem step_var_sym {a : Atom} {x : String} :
    step c (.var a) o 0 (.sym x :: m) s = (s.set o [.sym x], some (0, .sym x :: m)) := rfl
@[lib_step] theorem step_var1_float {a : Atom} {q : ℚ} : step c (.var a) o 1 (.float q :: m) s = (s.set o [.float q], none) := rfl
@[lib_step] theorem step_var1_sym {a : Atom} {x : String} : step c (.var a) o 1 (.sym x :: m) s = (s.set o [.sym x], none) := rfl
@[lib_step] theorem step_var1_bang {a : Atom} : step c (.var a) o 1 (.bang :: m) s = (s, none) := rfl

@[lib_step] theorem step_ite {k : ℚ} : step c (.ite k) o 0 m s = (s, some (if num (s.mem o) = 0 then 0 else 1, m)) := by
  cases m <;> rfl
@[lib_step] theorem step_ite1 {k q : ℚ} : step c (.ite k) o 1 (.float q :: m) s = (s.set o [.float q], none) := rfl

@[lib_step] theorem step_bin {op : Op} {k f : ℚ} :
    step c (.bin op k) o 0 [.float f] s = (s, some (0, [.float (op.eval f (num (s.mem o)))])) := rfl
@[lib_step] theorem step_bin_list {op : Op} {k f g : ℚ} :
    step c (.bin op k) o 0 (.float f :: .float g :: m) s = (s.set o [.float g], some (0, [.float (op.eval f g)])) := rfl
@[lib_step] theorem step_bin1 {op : Op} {k q : ℚ} : step c (.bin op k) o 1 (.float q :: m) s = (s.set o [.float q], none) := rfl
@[lib_step] theorem step_bink {op : Op} {k f : ℚ} {i : Nat} :
    step c (.bink op k) o i [.float f] s = (s, some (0, [.float (op.eval f k)])) := rfl
@[lib_step] theorem step_bink_bang {op : Op} {k : ℚ} {i : Nat} : step c (.bink op k) o i (.bang :: m) s = (s, none) := rfl
@[lib_step] theorem step_bink_sym {op : Op} {k : ℚ} {i : Nat} {x : String} :
    step c (.bink op k) o i (.sym x :: m) s = (s, none) := rfl

@[lib_step] theorem step_floor {i : Nat} {f : ℚ} :
    step c (.un .floor) o i (.float f :: m) s = (s, some (0, [.float (⌊f⌋ : ℚ)])) := rfl
@[lib_step] theorem step_ceil {i : Nat} {f : ℚ} :
    step c (.un .ceil) o i (.float f :: m) s = (s, some (0, [.float (⌈f⌉ : ℚ)])) := rfl
@[lib_step] theorem step_abs {i : Nat} {f : ℚ} :
    step c (.un .abs) o i (.float f :: m) s = (s, some (0, [.float |f|])) := rfl
@[lib_step] theorem step_un_bang {op : Un} {i : Nat} : step c (.un op) o i (.bang :: m) s = (s, none) := rfl
@[lib_step] theorem step_un_sym {op : Un} {i : Nat} {x : String} : step c (.un op) o i (.sym x :: m) s = (s, none) := rfl
@[lib_step] theorem step_fn {n : String} {i : Nat} {f : ℚ} :
    step c (.fn n) o i (.float f :: m) s = (s, some (0, [.float (fnEval c n f)])) := rfl
@[lib_step] theorem step_fn_bang {n : String} {i : Nat} : step c (.fn n) o i (.bang :: m) s = (s, none) := rfl
@[lib_step] theorem step_fn_sym {n : String} {i : Nat} {x : String} : step c (.fn n) o i (.sym x :: m) s = (s, none) := rfl
@[lib_step] theorem step_pow {k f : ℚ} :
    step c (.pow k) o 0 [.float f] s = (s, some (0, [.float (powEval c f (num (s.mem o)))])) := rfl
@[lib_step] theorem step_pow1 {k q : ℚ} : step c (.pow k) o 1 (.float q :: m) s = (s.set o [.float q], none) := rfl
@[lib_step] theorem step_powk {k f : ℚ} {i : Nat} :
    step c (.powk k) o i [.float f] s = (s, some (0, [.float (powEval c f k)])) := rfl
@[lib_step] theorem step_switch {cs : List Atom} {i : Nat} :
    step c (.switch cs) o i m s = (s, some (cs.findIdx (fun a => decide (a = key m)), m)) := rfl
@[lib_step] theorem step_slice {a n i : Nat} : step c (.slice a n) o i m s =
    (s, some (if a < m.length then (0, if n = 0 then m.drop a else (m.drop a).take n) else (1, [.bang]))) := rfl
@[lib_step] theorem step_pack {l : List ℚ} :
    step c (.pack l) o 0 m s = (s.set o (overlay (s.mem o) m), some (0, overlay (s.mem o) m)) := by
  cases m <;> rfl
theorem step_packR {l : List ℚ} {i : Nat} {q : ℚ} :
    step c (.pack l) o (i + 1) (.float q :: m) s = (s.set o ((s.mem o).set (i + 1) (.float q)), none) := rfl
@[lib_step] theorem step_pack1 {l : List ℚ} {q : ℚ} :
    step c (.pack l) o 1 (.float q :: m) s = (s.set o ((s.mem o).set 1 (.float q)), none) := rfl
@[lib_step] theorem step_pack2 {l : List ℚ} {q : ℚ} :
    step c (.pack l) o 2 (.float q :: m) s = (s.set o ((s.mem o).set 2 (.float q)), none) := rfl

@[lib_step] theorem step_samplerate {i : Nat} : step c .system o i [.sym "samplerate"] s = (s, some (0, [.float c.sr])) := rfl
@[lib_step] theorem step_currentTime {i : Nat} : step c .system o i [.sym "currentTime"] s = (s, some (0, [.float s.now])) := rfl

@[lib_step] theorem step_clear {k : ℚ} : step c (.delay k) o 0 (.sym "clear" :: m) s =
    ({ s with q := s.q.filter fun p => !decide (p.obj = o) }, none) := rfl
@[lib_step] theorem step_delay_bang {k : ℚ} : step c (.delay k) o 0 (.bang :: m) s =
    (if (waiting o s.q).length < maxMessages then
      ({ s with q := insert ⟨s.now + ⌊num (s.mem o)⌋.toNat, o, .bang :: m⟩ s.q }, none)
    else (s, none)) := rfl
@[lib_step] theorem step_delay_float {k q : ℚ} : step c (.delay k) o 0 (.float q :: m) s =
    (if (waiting o s.q).length < maxMessages then
      ({ s with q := insert ⟨s.now + ⌊num (s.mem o)⌋.toNat, o, .float q :: m⟩ s.q }, none)
    else (s, none)) := rfl
@[lib_step] theorem step_delay1 {k q : ℚ} : step c (.delay k) o 1 (.float q :: m) s =
    (s.set o [.float (⌊max 0 q * c.sr / 1000⌋ : ℚ)], none) := rfl
@[lib_step] theorem step_delay2 {k q : ℚ} : step c (.delay k) o 2 (.float q :: m) s =
    (s.set o [.float (⌊max 0 q⌋ : ℚ)], none) := rfl

end

/-! ## state -/

section
variable {s : St} {o x : Nat} {v w : List Atom}

@[lib_step] theorem set_mem : (s.set o v).mem x = if x = o then v else s.mem x := rfl
@[lib_step] theorem set_q : (s.set o v).q = s.q := rfl
@[lib_step] theorem set_now : (s.set o v).now = s.now := rfl
@[lib_step] theorem set_tab : (s.set o v).tab = s.tab := rfl
@[lib_step] theorem set_log : (s.set o v).log = s.log := rfl
@[lib_step] theorem num_cons {q : ℚ} : num (.float q :: v) = q := rfl

end

attribute [lib_step] List.map_cons List.map_nil List.cons_append List.nil_append List.append_nil Nat.reduceEqDiff reduceIte
  OfNat.ofNat_ne_zero OfNat.zero_ne_ofNat

theorem happens_ext {M : Mach} {drv : Nat → Nat} {t i : Nat} {m : Msg} {s s' : St} : Happens M drv (.ext t i m) s s' ↔
    s.now ≤ t ∧ (∀ p ∈ s.q.head?, t ≤ p.time) ∧ Ends M.sys (M.call (.outlet (drv i) 0 m)) { s with now := t } s' := by
  constructor
  · intro h
    cases h with
    | ext h1 h2 h3 => exact ⟨h1, h2, _, h3⟩
  · rintro ⟨h1, h2, t, h3⟩
    exact .ext h1 h2 h3

theorem happens_tick {M : Mach} {drv : Nat → Nat} {s s' : St} : Happens M drv .tick s s' ↔
    ∃ p q, s.q = p :: q ∧ Ends M.sys (M.call (.outlet p.obj 0 p.msg)) { s with now := p.time, q := q } s' := by
  constructor
  · intro h
    cases h with
    | tick h1 h3 => exact ⟨_, _, h1, _, h3⟩
  · rintro ⟨p, q, h1, t, h3⟩
    exact .tick h1 h3

theorem Hist.snoc {M : Mach} {drv : Nat → Nat} {es : List Ev} {e : Ev} {s s1 s2 : St} (h : Hist M drv es s s1)
    (he : Happens M drv e s1 s2) : Hist M drv (es ++ [e]) s s2 := by
  induction h with
  | nil => exact .cons he .nil
  | cons h1 _ ih => exact .cons h1 (ih he)

theorem Runs.snoc {M : Mach} {drv : Nat → Nat} {es : List Ev} {e : Ev} {st s s' : St} (h : Runs M drv st es s)
    (he : Happens M drv e s s') : Runs M drv st (es ++ [e]) s' := by
  obtain ⟨s0, h1, h2⟩ := h
  exact ⟨s0, h1, h2.snoc he⟩

end Verif.Lib
