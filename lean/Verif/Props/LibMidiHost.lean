import Verif.Props.LibMidi
import Verif.Props.Midi
import Mathlib.Tactic.Ring
import Mathlib.Tactic.NormNum
import Mathlib.Tactic.Positivity

/-!
# C72, continued: from the host to the outlets of the MIDI objects, and from their inlets to the host

`LibMidi.lean` says what the objects do with the messages of the wrapper, C46 what messages the wrapper makes of MIDI events (and back).
Here both are put together, in terms of MIDI messages alone (`Spec.ChannelMessage`).
-/
namespace Verif.Lib
open Verif.Midi (Event Sent OutState handleMidiInput handleMidiSend others)
open Verif.Midi.Spec

/-- numbers as elements of a message -/
def floats (l : List ℚ) : Msg := l.map .float

/-- the messages of the wrapper that go to the receiver `name`, as a history of the patch; `τ` turns milliseconds into samples -/
def arrivals (τ : ℚ → ℕ) (name : String) (l : List Sent) : List Ev :=
  (l.filter fun s => s.hash = nameHash name).map fun s => .ext (τ s.ms) 0 (floats s.args)

/-- what an object should put out for a block of events whose first one is at `t`; `out m` is what it puts out for the MIDI message `m` -/
def block (out : ChannelMessage → List (Nat × Msg)) (t : ℕ) (ps : List (Event × Option ChannelMessage)) : List (Nat × Nat × Msg) :=
  ps.flatMap fun q => match q.2 with | some m => (out m).map fun y => (t, y) | none => []

theorem after_unit (O : Reacts Unit) (es : List Ev) (acc : List (Nat × Nat × Msg)) :
    (es.foldl O.step ((), acc)).2 = acc ++ es.flatMap fun e => match e with
      | .ext t i m => (O.on () t i m).2.map fun y => (t, y)
      | .tick => [] := by
  induction es generalizing acc with
  | nil => simp
  | cons e es ih =>
    cases e with
    | ext t i m => rw [List.foldl_cons, show O.step ((), acc) (.ext t i m) = ((), acc ++ (O.on () t i m).2.map fun y => (t, y)) from rfl, ih]; simp
    | tick => rw [List.foldl_cons, show O.step ((), acc) .tick = ((), acc) from rfl, ih]; simp

theorem arrivals_others (τ : ℚ → ℕ) (name : String) (hn : nameHash name ≠ nameHash "__hv_midiin") (l : List Sent) :
    arrivals τ name l = arrivals τ name (others l) := by
  unfold arrivals others
  rw [List.filter_filter]
  congr 1
  apply List.filter_congr
  intro x _
  by_cases h : x.hash = nameHash name <;> simp [h, hn]

theorem arrivals_expected (τ : ℚ → ℕ) (name : String) (sr : ℚ) (f : ℕ) (out : ChannelMessage → List (Nat × Msg)) (O : Reacts Unit)
    (ho : ∀ m t, (incoming m).1 = name → (O.on () t 0 (floats (nums (incoming m).2))).2 = out m)
    (hn : ∀ m, (incoming m).1 ≠ name → nameHash (incoming m).1 ≠ nameHash name ∧ out m = [])
    (ps : List (Event × Option ChannelMessage)) :
    ((arrivals τ name (expectedAll sr (ps.map fun q => ({ q.1 with frame := f }, q.2)))).flatMap fun e => match e with
      | .ext t i m => (O.on () t i m).2.map fun y => (t, y)
      | .tick => []) = block out (τ (1000 * f / sr)) ps := by
  induction ps with
  | nil => rfl
  | cons q ps ih =>
    unfold arrivals block at *
    rw [List.map_cons, expectedAll, List.filter_append, List.map_append, List.flatMap_append, ih, List.flatMap_cons]
    congr 1
    cases hq : q.2 with
    | none => simp [expected]
    | some m =>
      simp only [expected]
      by_cases h : (incoming m).1 = name
      · simp [h, ho m _ h]
      · obtain ⟨h1, h2⟩ := hn m h
        simp [h1, h2]

theorem arrivals_fits (τ : ℚ → ℕ) (name : String) (sr : ℚ) (f : ℕ) (Fits : Ev → Prop)
    (ho : ∀ m t, (incoming m).1 = name → Fits (.ext t 0 (floats (nums (incoming m).2))))
    (hn : ∀ m, (incoming m).1 ≠ name → nameHash (incoming m).1 ≠ nameHash name)
    (ps : List (Event × Option ChannelMessage)) :
    ∀ e ∈ arrivals τ name (expectedAll sr (ps.map fun q => ({ q.1 with frame := f }, q.2))), Fits e := by
  induction ps with
  | nil => intro e he; cases he
  | cons q ps ih =>
    intro e he
    unfold arrivals at *
    rw [List.map_cons, expectedAll, List.filter_append, List.map_append, List.mem_append] at he
    rcases he with he | he
    · cases hq : q.2 with
      | none => simp [hq, expected] at he
      | some m =>
        by_cases h : (incoming m).1 = name
        · simp only [hq, expected, h, decide_true, List.filter_cons_of_pos, List.filter_nil, List.map_cons, List.map_nil,
            List.mem_singleton] at he
          subst he
          exact ho m _ h
        · simp [hq, expected, hn m h] at he
    · exact ih e he

/-- what the objects do, put together with what the wrapper does -/
theorem hears {M : Mach} {drv : Nat → Nat} {st : St} {Fits : Ev → Prop} {O : Reacts Unit} (hD : Does M drv st Fits O) (name : String)
    (out : ChannelMessage → List (Nat × Msg)) (hm : nameHash name ≠ nameHash "__hv_midiin")
    (ho : ∀ m t, (incoming m).1 = name → Fits (.ext t 0 (floats (nums (incoming m).2))) ∧ (O.on () t 0 (floats (nums (incoming m).2))).2 = out m)
    (hn : ∀ m, (incoming m).1 ≠ name → nameHash (incoming m).1 ≠ nameHash name ∧ out m = [])
    (τ : ℚ → ℕ) (sr : ℚ) (p : Event × Option ChannelMessage) (ps : List (Event × Option ChannelMessage)) (rest : List Event)
    (h4 : 4 ≤ ps.length + 1 + rest.length) (h : ∀ q ∈ p :: ps, Is q.1 q.2) :
    ∃ r, handleMidiInput sr ((p :: ps).map (·.1) ++ rest) (ps.length + 1) = .ok r ∧
      ∀ s, Runs M drv st (arrivals τ name r) s → s.log = block out (τ (1000 * p.1.frame / sr)) (p :: ps) := by
  obtain ⟨r, hr, hro⟩ := Midi.midi_in sr p ps rest h4 h
  refine ⟨r, hr, fun s hs => ?_⟩
  rw [arrivals_others τ name hm, hro] at hs
  rw [(hD.same _ (arrivals_fits τ name sr _ Fits (fun m t e => (ho m t e).1) (fun m e => (hn m e).1) _) s hs).1]
  rw [← arrivals_expected τ name sr p.1.frame out O (fun m t e => (ho m t e).2) hn (p :: ps)]
  exact (after_unit O _ []).trans (List.nil_append _)

open ChannelMessage

/-- the receivers of the wrapper -/
def names : List String := ["__hv_notein", "__hv_ctlin", "__hv_polytouchin", "__hv_pgmin", "__hv_touchin", "__hv_bendin", "__hv_midiin"]

theorem names_nodup : (names.map nameHash).Nodup := by
  obtain ⟨h1, h2, h3, h4, h5, h6, h7, -⟩ := Midi.hash_in
  simp only [names, List.map_cons, List.map_nil, h1, h2, h3, h4, h5, h6, h7]
  decide

theorem names_differ {x y : String} (hx : x ∈ names) (hy : y ∈ names) (h : x ≠ y) : nameHash x ≠ nameHash y :=
  fun e => h (List.inj_on_of_nodup_map names_nodup hx hy e)

theorem incoming_names (m : ChannelMessage) : (incoming m).1 ∈ names := by
  cases m <;> simp [incoming, names]

/-- channel, and if it is let through two numbers -/
def out32 (a : ℚ) (d0 d1 : ℕ) (c : Fin 16) : List (Nat × Msg) :=
  (2, num1 ((c.val : ℚ) + 1)) :: if Passes a c.val then [(1, num1 d1), (0, num1 d0)] else []

/-- if the channel is let through, it and one number -/
def out21 (a : ℚ) (v : ℕ) (c : Fin 16) : List (Nat × Msg) :=
  if Passes a c.val then [(1, num1 ((c.val : ℚ) + 1)), (0, num1 v)] else []

/-- a note-off is a note with velocity 0; key out of the first outlet, velocity out of the second, channel out of the third -/
def noteinOut (a : ℚ) : ChannelMessage → List (Nat × Msg)
  | noteOff c k _ => out32 a k 0 c
  | noteOn c k v => out32 a k v c
  | _ => []

/-- pressure out of the first outlet, key out of the second -/
def polytouchinOut (a : ℚ) : ChannelMessage → List (Nat × Msg)
  | polyTouch c k p => out32 a p k c
  | _ => []

/-- the value is 0 .. 16383 -/
def bendinOut (a : ℚ) : ChannelMessage → List (Nat × Msg)
  | bend c v => out21 a v c
  | _ => []

/-- the pressure is 0 .. 127 -/
def touchinOut (a : ℚ) : ChannelMessage → List (Nat × Msg)
  | touch c p => out21 a p c
  | _ => []

/-- the program is 1 .. 128 -/
def pgminOut (a : ℚ) : ChannelMessage → List (Nat × Msg)
  | program c n => out21 a (n + 1) c
  | _ => []

/-- with a controller `a ≠ 0` as argument and without a channel: channel and value of that controller; with a channel `b` too: the value alone.
Without a controller: channel, controller and value of all of them -- and for controller 0 the channel as controller -/
def ctlinOut (a b : ℚ) : ChannelMessage → List (Nat × Msg)
  | controlChange c n v =>
    if (trunc a : ℚ) = 0 then
      [(2, num1 ((c.val : ℚ) + 1)), (1, num1 n.val)] ++ (if n = 0 ∧ (trunc b : ℚ) = 0 then [(1, num1 ((c.val : ℚ) + 1))] else []) ++ [(0, num1 v.val)]
    else if (n.val : ℚ) = trunc a then
      if (trunc b : ℚ) = 0 then [(1, num1 ((c.val : ℚ) + 1)), (0, num1 v.val)] else if (c.val : ℚ) + 1 = trunc b then [(0, num1 v.val)] else []
    else []
  | _ => []

section
variable {M : Mach} {c : Ctx} {tab : Nat → List ℚ} (τ : ℚ → ℕ) (sr : ℚ) (p : Event × Option ChannelMessage)
  (ps : List (Event × Option ChannelMessage)) (rest : List Event)

/-- **C72, from the host**: what comes out of `[notein a]` for the events of a block -/
theorem notein_hears {a : ℚ} (hM : Notein.Code a c M) (h4 : 4 ≤ ps.length + 1 + rest.length) (h : ∀ q ∈ p :: ps, Is q.1 q.2) :
    ∃ r, handleMidiInput sr ((p :: ps).map (·.1) ++ rest) (ps.length + 1) = .ok r ∧
      ∀ s, Runs M Notein.drv (start c (Notein.nodes a) tab) (arrivals τ "__hv_notein" r) s →
        s.log = block (noteinOut a) (τ (1000 * p.1.frame / sr)) (p :: ps) := by
  refine hears (Notein.does M hM tab) _ _ (names_differ (by simp [names]) (by simp [names]) (by decide)) ?_ ?_ τ sr p ps rest h4 h
  · intro m t e
    cases m <;> simp [incoming] at e <;>
      simp [incoming, nums, floats, Three, in3, noteinOut, out32, out21, num1]
  · intro m e
    refine ⟨names_differ (incoming_names m) (by simp [names]) e, ?_⟩
    cases m <;> simp [incoming] at e <;> rfl

/-- **C72, from the host**: what comes out of `[polytouchin a]` for the events of a block -/
theorem polytouchin_hears {a : ℚ} (hM : Polytouchin.Code a c M) (h4 : 4 ≤ ps.length + 1 + rest.length) (h : ∀ q ∈ p :: ps, Is q.1 q.2) :
    ∃ r, handleMidiInput sr ((p :: ps).map (·.1) ++ rest) (ps.length + 1) = .ok r ∧
      ∀ s, Runs M Polytouchin.drv (start c (Polytouchin.nodes a) tab) (arrivals τ "__hv_polytouchin" r) s →
        s.log = block (polytouchinOut a) (τ (1000 * p.1.frame / sr)) (p :: ps) := by
  refine hears (Polytouchin.does M hM tab) _ _ (names_differ (by simp [names]) (by simp [names]) (by decide)) ?_ ?_ τ sr p ps rest h4 h
  · intro m t e
    cases m <;> simp [incoming] at e <;>
      simp [incoming, nums, floats, Three, in3, polytouchinOut, out32, out21, num1]
  · intro m e
    refine ⟨names_differ (incoming_names m) (by simp [names]) e, ?_⟩
    cases m <;> simp [incoming] at e <;> rfl

/-- **C72, from the host**: what comes out of `[bendin a]` for the events of a block -/
theorem bendin_hears {a : ℚ} (hM : Bendin.Code a c M) (h4 : 4 ≤ ps.length + 1 + rest.length) (h : ∀ q ∈ p :: ps, Is q.1 q.2) :
    ∃ r, handleMidiInput sr ((p :: ps).map (·.1) ++ rest) (ps.length + 1) = .ok r ∧
      ∀ s, Runs M Bendin.drv (start c (Bendin.nodes a) tab) (arrivals τ "__hv_bendin" r) s →
        s.log = block (bendinOut a) (τ (1000 * p.1.frame / sr)) (p :: ps) := by
  refine hears (Bendin.does M hM tab) _ _ (names_differ (by simp [names]) (by simp [names]) (by decide)) ?_ ?_ τ sr p ps rest h4 h
  · intro m t e
    cases m <;> simp [incoming] at e <;>
      simp [incoming, nums, floats, Two, in2, bendinOut, out32, out21, num1]
  · intro m e
    refine ⟨names_differ (incoming_names m) (by simp [names]) e, ?_⟩
    cases m <;> simp [incoming] at e <;> rfl

/-- **C72, from the host**: what comes out of `[touchin a]` for the events of a block -/
theorem touchin_hears {a : ℚ} (hM : Touchin.Code a c M) (h4 : 4 ≤ ps.length + 1 + rest.length) (h : ∀ q ∈ p :: ps, Is q.1 q.2) :
    ∃ r, handleMidiInput sr ((p :: ps).map (·.1) ++ rest) (ps.length + 1) = .ok r ∧
      ∀ s, Runs M Touchin.drv (start c (Touchin.nodes a) tab) (arrivals τ "__hv_touchin" r) s →
        s.log = block (touchinOut a) (τ (1000 * p.1.frame / sr)) (p :: ps) := by
  refine hears (Touchin.does M hM tab) _ _ (names_differ (by simp [names]) (by simp [names]) (by decide)) ?_ ?_ τ sr p ps rest h4 h
  · intro m t e
    cases m <;> simp [incoming] at e <;>
      simp [incoming, nums, floats, Two, in2, touchinOut, out32, out21, num1]
  · intro m e
    refine ⟨names_differ (incoming_names m) (by simp [names]) e, ?_⟩
    cases m <;> simp [incoming] at e <;> rfl

/-- **C72, from the host**: what comes out of `[pgmin a]` for the events of a block -/
theorem pgmin_hears {a : ℚ} (hM : Pgmin.Code a c M) (h4 : 4 ≤ ps.length + 1 + rest.length) (h : ∀ q ∈ p :: ps, Is q.1 q.2) :
    ∃ r, handleMidiInput sr ((p :: ps).map (·.1) ++ rest) (ps.length + 1) = .ok r ∧
      ∀ s, Runs M Pgmin.drv (start c (Pgmin.nodes a) tab) (arrivals τ "__hv_pgmin" r) s →
        s.log = block (pgminOut a) (τ (1000 * p.1.frame / sr)) (p :: ps) := by
  refine hears (Pgmin.does M hM tab) _ _ (names_differ (by simp [names]) (by simp [names]) (by decide)) ?_ ?_ τ sr p ps rest h4 h
  · intro m t e
    cases m <;> simp [incoming] at e <;>
      simp [incoming, nums, floats, Two, in2, pgminOut, out32, out21, num1]
  · intro m e
    refine ⟨names_differ (incoming_names m) (by simp [names]) e, ?_⟩
    cases m <;> simp [incoming] at e <;> rfl

/-- **C72, from the host**: what comes out of `[ctlin a b]` for the events of a block -/
theorem ctlin_hears {a b : ℚ} (hM : Ctlin.Code a b c M) (h4 : 4 ≤ ps.length + 1 + rest.length) (h : ∀ q ∈ p :: ps, Is q.1 q.2) :
    ∃ r, handleMidiInput sr ((p :: ps).map (·.1) ++ rest) (ps.length + 1) = .ok r ∧
      ∀ s, Runs M Ctlin.drv (start c (Ctlin.nodes a b) tab) (arrivals τ "__hv_ctlin" r) s →
        s.log = block (ctlinOut a b) (τ (1000 * p.1.frame / sr)) (p :: ps) := by
  refine hears (Ctlin.does M hM tab) _ _ (names_differ (by simp [names]) (by simp [names]) (by decide)) ?_ ?_ τ sr p ps rest h4 h
  · intro m t e
    cases m <;> simp [incoming] at e <;>
      simp [incoming, nums, floats, Ctlin.Fits, Ctlin.spec, ctlinOut, out32, out21, num1]
  · intro m e
    refine ⟨names_differ (incoming_names m) (by simp [names]) e, ?_⟩
    cases m <;> simp [incoming] at e <;> rfl

end

/-! ### sending -/

/-- numbers that come at the inlets (inlet, number) at time `t`, one after the other -/
def feed (t : ℕ) (l : List (Nat × ℚ)) : List Ev := l.map fun x => .ext t x.1 (num1 x.2)

/-- how a patch sends a MIDI message on a port (channels and programs are counted from 1, the bend wheel from its middle): the object, and
the numbers at its inlets, from right to left.  Note-offs are notes with velocity 0, so a note-on with velocity 0 and a note-off with another
velocity cannot be sent. -/
def played (port : ℕ) : ChannelMessage → Option (String × List (Nat × ℚ))
  | noteOff c k v => if v = 0 then some ("noteout", [(2, (c.val + 16 * port : ℕ) + 1), (1, 0), (0, k.val)]) else none
  | noteOn c k v => if v = 0 then none else some ("noteout", [(2, (c.val + 16 * port : ℕ) + 1), (1, v.val), (0, k.val)])
  | polyTouch c k p => some ("polytouchout", [(2, (c.val + 16 * port : ℕ) + 1), (1, k.val), (0, p.val)])
  | controlChange c n v => some ("ctlout", [(2, (c.val + 16 * port : ℕ) + 1), (1, n.val), (0, v.val)])
  | program c n => some ("pgmout", [(1, (c.val + 16 * port : ℕ) + 1), (0, (n.val : ℚ) + 1)])
  | touch c p => some ("touchout", [(1, (c.val + 16 * port : ℕ) + 1), (0, p.val)])
  | bend c v => some ("bendout", [(1, (c.val + 16 * port : ℕ) + 1), (0, (v.val : ℚ) - 8192)])

/-- after any history, the numbers at the inlets make the object send one message more, and the wrapper makes the MIDI message of it -/
def Sends {σ : Type} (M : Mach) (drv : Nat → Nat) (st : St) (Fits : Ev → Prop) (O : Reacts σ) (obj : String) (port : ℕ) : Prop :=
  ∀ (m : ChannelMessage) (l : List (Nat × ℚ)), played port m = some (obj, l) → ∀ (es : List Ev), (∀ e ∈ es, Fits e) →
    ∀ (t : ℕ) (s : St), Runs M drv st (es ++ feed t l) s → ∃ qs : List ℚ, s.log = (O.after es).2 ++ [(t, 0, floats qs)] ∧
      ∀ w : OutState, handleMidiSend w (nameHash ("__hv_" ++ obj)) qs = .ok (w, [(bytes m).map (BitVec.ofNat 8)])

theorem rounds_nat (n : ℕ) : Rounds (n : ℚ) n := ⟨le_refl _, by simp⟩

theorem numbers_nat (l : List ℕ) : Midi.Numbers (nums l) l := by
  unfold Midi.Numbers nums
  induction l with
  | nil => exact .nil
  | cons n l ih => exact .cons (rounds_nat n) ih

/-- the message an object should send, and that it does -/
theorem sends_of {σ : Type} {M : Mach} {drv : Nat → Nat} {st : St} {Fits : Ev → Prop} {O : Reacts σ} (hD : Does M drv st Fits O) (obj : String)
    (port : ℕ) (hport : port < 16) (hp : obj = "polytouchout" → port = 0)
    (h : ∀ (m : ChannelMessage) (l : List (Nat × ℚ)), played port m = some (obj, l) →
      ∃ (ns : List ℕ) (ch : Fin 16), outgoing m = some ("__hv_" ++ obj, ns, ch) ∧ ∀ t, (∀ e ∈ feed t l, Fits e) ∧
        ∀ x : σ × List (Nat × Nat × Msg), ((feed t l).foldl O.step x).2 = x.2 ++ [(t, 0, floats (nums (ns ++ [ch.val + 16 * port])))]) :
    Sends M drv st Fits O obj port := by
  intro m l hl es hes t s hs
  obtain ⟨ns, ch, ho, ht⟩ := h m l hl
  refine ⟨nums (ns ++ [ch.val + 16 * port]), ?_, fun w => ?_⟩
  · rw [(hD.same _ (fun e he => (List.mem_append.1 he).elim (hes e) ((ht t).1 e)) s hs).1]
    unfold Reacts.after
    rw [List.foldl_append, (ht t).2]
  · refine Midi.midi_out_partial w m _ ns ch ho port hport (fun e => hp ?_) _ (numbers_nat _)
    cases m <;> simp only [played] at hl <;> (try split at hl) <;> simp only [Option.some.injEq, Prod.mk.injEq, reduceCtorEq] at hl <;>
      obtain ⟨rfl, -⟩ := hl <;> first | rfl | (exact absurd e (by decide))

section
variable {M : Mach} {c : Ctx} {tab : Nat → List ℚ} (port : ℕ) (hport : port < 16)
include hport

/-- **C72, to the host**: `[noteout a]` -/
theorem noteout_sends {a : ℚ} (hM : Noteout.Code a c M) :
    Sends M Noteout.drv (start c (Noteout.nodes a) tab) Out3 (out3 0 a) "noteout" port := by
  refine sends_of (Noteout.does M hM tab) _ port hport (fun e => absurd e (by decide)) fun m l hl => ?_
  cases m <;> simp only [played] at hl <;> (try split at hl) <;> simp [-Nat.cast_add, -Nat.cast_mul] at hl <;> subst hl <;>
    refine ⟨_, _, by simp only [outgoing, *]; rfl, fun t => ⟨by simp [feed, Out3, num1], fun x => ?_⟩⟩ <;>
    simp [feed, Reacts.step, out3, num1, floats, nums] <;> positivity

/-- **C72, to the host**: `[ctlout a b]` -/
theorem ctlout_sends {a b : ℚ} (hM : Ctlout.Code a b c M) :
    Sends M Ctlout.drv (start c (Ctlout.nodes a b) tab) Out3 (out3 a b) "ctlout" port := by
  refine sends_of (Ctlout.does M hM tab) _ port hport (fun e => absurd e (by decide)) fun m l hl => ?_
  cases m <;> simp only [played] at hl <;> (try split at hl) <;> simp [-Nat.cast_add, -Nat.cast_mul] at hl <;> subst hl <;>
    refine ⟨_, _, by simp only [outgoing, *]; rfl, fun t => ⟨by simp [feed, Out3, num1], fun x => ?_⟩⟩ <;>
    simp [feed, Reacts.step, out3, num1, floats, nums] <;> positivity

/-- **C72, to the host**: `[polytouchout a]` (only port 0: C46) -/
theorem polytouchout_sends {a : ℚ} (hM : Polytouchout.Code a c M) (hp : port = 0) :
    Sends M Polytouchout.drv (start c (Polytouchout.nodes a) tab) Out3 (out3 0 a) "polytouchout" port := by
  refine sends_of (Polytouchout.does M hM tab) _ port hport (fun _ => hp) fun m l hl => ?_
  cases m <;> simp only [played] at hl <;> (try split at hl) <;> simp [-Nat.cast_add, -Nat.cast_mul] at hl <;> subst hl <;>
    refine ⟨_, _, by simp only [outgoing, *]; rfl, fun t => ⟨by simp [feed, Out3, num1], fun x => ?_⟩⟩ <;>
    simp [feed, Reacts.step, out3, num1, floats, nums] <;> positivity

/-- **C72, to the host**: `[bendout a]` -/
theorem bendout_sends {a : ℚ} (hM : Bendout.Code a c M) :
    Sends M Bendout.drv (start c (Bendout.nodes a) tab) Out2 (out2 (· + 8192) a) "bendout" port := by
  refine sends_of (Bendout.does M hM tab) _ port hport (fun e => absurd e (by decide)) fun m l hl => ?_
  cases m <;> simp only [played] at hl <;> (try split at hl) <;> simp [-Nat.cast_add, -Nat.cast_mul] at hl <;> subst hl <;>
    refine ⟨_, _, by simp only [outgoing, *]; rfl, fun t => ⟨by simp [feed, Out2, num1], fun x => ?_⟩⟩ <;>
    simp [feed, Reacts.step, out2, num1, floats, nums] <;> positivity

/-- **C72, to the host**: `[touchout a]` -/
theorem touchout_sends {a : ℚ} (hM : Touchout.Code a c M) :
    Sends M Touchout.drv (start c (Touchout.nodes a) tab) Out2 (out2 id a) "touchout" port := by
  refine sends_of (Touchout.does M hM tab) _ port hport (fun e => absurd e (by decide)) fun m l hl => ?_
  cases m <;> simp only [played] at hl <;> (try split at hl) <;> simp [-Nat.cast_add, -Nat.cast_mul] at hl <;> subst hl <;>
    refine ⟨_, _, by simp only [outgoing, *]; rfl, fun t => ⟨by simp [feed, Out2, num1], fun x => ?_⟩⟩ <;>
    simp [feed, Reacts.step, out2, num1, floats, nums] <;> positivity

/-- **C72, to the host**: `[pgmout a]` -/
theorem pgmout_sends {a : ℚ} (hM : Pgmout.Code a c M) :
    Sends M Pgmout.drv (start c (Pgmout.nodes a) tab) Out2 (out2 (fun p => max (p - 1) 0) a) "pgmout" port := by
  refine sends_of (Pgmout.does M hM tab) _ port hport (fun e => absurd e (by decide)) fun m l hl => ?_
  cases m <;> simp only [played] at hl <;> (try split at hl) <;> simp [-Nat.cast_add, -Nat.cast_mul] at hl <;> subst hl <;>
    refine ⟨_, _, by simp only [outgoing, *]; rfl, fun t => ⟨by simp [feed, Out2, num1], fun x => ?_⟩⟩ <;>
    simp [feed, Reacts.step, out2, num1, floats, nums] <;> positivity

end

/-! ### where Pd does something else -/

/-- **C72, F92**: `[ctlin]` without arguments reports controller 0 (bank select) as the controller whose number is the channel: that is
what has come last out of the second outlet when the value comes out of the first -/
theorem ctlin_bank (c : Fin 16) (v : Fin 128) :
    ctlinOut 0 0 (controlChange c 0 v) = [(2, num1 ((c.val : ℚ) + 1)), (1, num1 0), (1, num1 ((c.val : ℚ) + 1)), (0, num1 v.val)] := by
  simp [ctlinOut, trunc]

/-- **C72, F93**: `[ctlin 0 b]` lets everything through, for all `b`: neither the controller nor the channel is looked at -/
theorem ctlin_zero (b : ℚ) (hb : (trunc b : ℚ) ≠ 0) (c : Fin 16) (n v : Fin 128) :
    ctlinOut 0 b (controlChange c n v) = [(2, num1 ((c.val : ℚ) + 1)), (1, num1 n.val), (0, num1 v.val)] := by
  have h0 : trunc 0 = 0 := by decide +kernel
  simp [ctlinOut, h0, hb]

/-- **C72, F94**: `[notein a]` reports the channel of the notes it does not let through -/
theorem notein_channel (a : ℚ) (c : Fin 16) (k v : Fin 128) (h : ¬ Passes a c.val) :
    noteinOut a (noteOn c k v) = [(2, num1 ((c.val : ℚ) + 1))] := by
  simp [noteinOut, out32, h]

/-- **C72, F95**: the third element of a list at `[noteout]` is the channel counted from 0, that at the third inlet from 1 -/
theorem noteout_list (a k v c : ℚ) (t : ℕ) :
    ((out3 0 a).after [.ext t 0 [.float k, .float v, .float c]]).2 = [(t, 0, [.float k, .float v, .float c])] ∧
    ((out3 0 a).after (feed t [(2, c), (1, v), (0, k)])).2 = [(t, 0, [.float k, .float v, .float (max (c - 1) 0)])] := ⟨rfl, rfl⟩

/-! ### examples -/

/-- `[notein 2]`: a note on channel 2 and one on channel 1 -/
example : block (noteinOut 2) 7 [(⟨0, fun _ => 0⟩, some (noteOn 1 60 100)), (⟨0, fun _ => 0⟩, some (noteOn 0 62 100)), (⟨3, fun _ => 0⟩, none)] =
    [(7, 2, [.float 2]), (7, 1, [.float 100]), (7, 0, [.float 60]), (7, 2, [.float 1])] := by decide +kernel

/-- `[ctlin 7 3]` and `[ctlin 7]` -/
example : ctlinOut 7 3 (controlChange 2 7 99) = [(0, [.float 99])] ∧ ctlinOut 7 3 (controlChange 1 7 99) = [] ∧
    ctlinOut 7 3 (controlChange 2 8 99) = [] ∧ ctlinOut 7 0 (controlChange 2 7 99) = [(1, [.float 3]), (0, [.float 99])] := by decide +kernel

/-- the events of a block hold what they are said to hold -/
example : Is ⟨5, fun i => [0x91#8, 60#8, 100#8, 0#8].getD i.val 0⟩ (some (noteOn 1 60 100)) := by
  intro i b hb
  match i with
  | 0 => simp [bytes] at hb; subst hb; rfl
  | 1 => simp [bytes] at hb; subst hb; rfl
  | 2 => simp [bytes] at hb; subst hb; rfl
  | 3 => simp [bytes] at hb

/-- a bend down to the bottom of the wheel on channel 16 -/
example : played 0 (bend 15 0) = some ("bendout", [(1, 16), (0, -8192)]) := by
  simp [played]; norm_num

/-- such programs exist -/
example (c : Ctx) : ∃ M, Notein.Code 2 c M := Notein.code_exists 2 c
example (c : Ctx) : ∃ M, Ctlin.Code 7 3 c M := Ctlin.code_exists 7 3 c
example (c : Ctx) : ∃ M, Noteout.Code 1 c M := Noteout.code_exists 1 c

end Verif.Lib
