import Verif.LightPipeTso
import Verif.LightPipeProofs
/-!
Proofs for the light pipe on a machine with store buffers: what is in memory is always a state of the sequential machine of
`Verif/LightPipe.lean` whose producer is late (its stores are those not in memory yet) and has decided from an old `readHead`.
-/
namespace Verif.LightPipe

/-- payload stores from byte `k` on, record at `w` -/
def fillStores (w : Nat) : Nat → List Byte → List Store
  | _, [] => []
  | k, b :: bs => .byte (w + 4 + k) b :: fillStores w (k + 1) bs

def tailStores (w : Nat) (m : Msg) : List Store := [.word (w + 4 + m.length) STOP, .word w m.length]

/-- the stores the producer still makes for the message it is sending -/
def pend (p : PPc) (wr : Nat) : List Store :=
  match p with
  | .idle => []
  | .loopStop m old => .word 0 STOP :: .word old LOOP :: (fillStores 0 0 m ++ tailStores 0 m)
  | .loopLoop m old => .word old LOOP :: (fillStores 0 0 m ++ tailStores 0 m)
  | .fill m k => fillStores wr k (m.drop k) ++ tailStores wr m
  | .prodStop m => tailStores wr m
  | .prodLen m old => [.word old m.length]

def cur : PPc → List Msg
  | .idle => []
  | .loopStop m _ => [m]
  | .loopLoop m _ => [m]
  | .fill m _ => [m]
  | .prodStop m => [m]
  | .prodLen m _ => [m]

/-- where the next record goes when the current message is complete -/
def nextPos (p : PPc) (wr : Nat) : Nat :=
  match p with
  | .idle => wr
  | .loopStop m _ => 4 + m.length
  | .loopLoop m _ => 4 + m.length
  | .fill m _ => wr + 4 + m.length
  | .prodStop m => wr + 4 + m.length
  | .prodLen _ _ => wr

/-- the committed write position -/
def wcOf (p : PPc) (wr : Nat) : Nat :=
  match p with
  | .idle => wr
  | .loopStop _ old => old
  | .loopLoop _ old => old
  | .fill _ _ => wr
  | .prodStop _ => wr
  | .prodLen _ old => old

def turn : PPc → Nat
  | .loopStop _ _ => 1
  | .loopLoop _ _ => 1
  | _ => 0

theorem nextPos_idle (w : Nat) : nextPos .idle w = w := rfl
theorem pend_idle (w : Nat) : pend .idle w = [] := rfl
theorem cur_idle : cur .idle = [] := rfl

/-- a message that has been accepted, and whether it goes to the start of the buffer -/
abbrev Job := Msg × Bool

def jobStores (w : Nat) : List Job → List Store
  | [] => []
  | (m, false) :: js => (fillStores w 0 m ++ tailStores w m) ++ jobStores (w + 4 + m.length) js
  | (m, true) :: js => (.word 0 STOP :: .word w LOOP :: (fillStores 0 0 m ++ tailStores 0 m)) ++ jobStores (4 + m.length) js

def endPos (w : Nat) : List Job → Nat
  | [] => w
  | (m, false) :: js => endPos (w + 4 + m.length) js
  | (m, true) :: js => endPos (4 + m.length) js

def endLap (l : Nat) : List Job → Nat
  | [] => l
  | (_, false) :: js => endLap l js
  | (_, true) :: js => endLap (l + 1) js

/-- there is room for each of the jobs while the consumer is at `ro` on lap `rl` -/
def JobsOk (len : Nat) (l w rl ro : Nat) : List Job → Prop
  | [] => True
  | (m, false) :: js => MsgOk m ∧ w + m.length + 8 ≤ len ∧ (rl = l ∨ rl + 1 = l ∧ w + m.length + 8 ≤ ro) ∧
      JobsOk len l (w + 4 + m.length) rl ro js
  | (m, true) :: js => MsgOk m ∧ m.length + 8 ≤ len ∧ rl = l ∧ m.length + 8 ≤ ro ∧ JobsOk len (l + 1) (4 + m.length) rl ro js

def Le (l o l' o' : Nat) : Prop := l < l' ∨ l = l' ∧ o ≤ o'

theorem JobsOk.mono {len rl ro rl' ro' : Nat} (h1 : Le rl ro rl' ro') : ∀ (js : List Job) (l w : Nat),
    JobsOk len l w rl ro js → Le rl' ro' l w → JobsOk len l w rl' ro' js := by
  intro js
  induction js with
  | nil => intro l w _ _; trivial
  | cons j js ih =>
    rintro l w h h2
    obtain ⟨m, _ | _⟩ := j
    · obtain ⟨a, b, c, d⟩ := h
      unfold Le at h1 h2
      exact ⟨a, b, by omega, ih _ _ d (by unfold Le; omega)⟩
    · obtain ⟨a, b, c, d, e⟩ := h
      unfold Le at h1 h2
      exact ⟨a, b, by omega, by omega, ih _ _ e (by unfold Le; omega)⟩

theorem JobsOk.append {len rl ro : Nat} (j : Job) : ∀ (js : List Job) (l w : Nat), JobsOk len l w rl ro js →
    JobsOk len (endLap l js) (endPos w js) rl ro [j] → JobsOk len l w rl ro (js ++ [j]) := by
  intro js
  induction js with
  | nil => intro l w _ h; exact h
  | cons x js ih =>
    rintro l w h h2
    obtain ⟨m, _ | _⟩ := x
    · exact ⟨h.1, h.2.1, h.2.2.1, ih _ _ h.2.2.2 h2⟩
    · exact ⟨h.1, h.2.1, h.2.2.1, h.2.2.2.1, ih _ _ h.2.2.2.2 h2⟩

theorem endPos_append (j : Job) : ∀ (js : List Job) (w : Nat), endPos w (js ++ [j]) = endPos (endPos w js) [j] := by
  intro js
  induction js with
  | nil => intro w; rfl
  | cons x js ih => obtain ⟨m, _ | _⟩ := x <;> intro w <;> exact ih _

theorem endLap_append (j : Job) : ∀ (js : List Job) (w : Nat), endLap w (js ++ [j]) = endLap (endLap w js) [j] := by
  intro js
  induction js with
  | nil => intro w; rfl
  | cons x js ih => obtain ⟨m, _ | _⟩ := x <;> intro w <;> exact ih _

theorem jobStores_append (j : Job) : ∀ (js : List Job) (w : Nat), jobStores w (js ++ [j]) = jobStores w js ++ jobStores (endPos w js) [j] := by
  intro js
  induction js with
  | nil => intro w; rfl
  | cons x js ih =>
    obtain ⟨m, _ | _⟩ := x <;> intro w <;> simp only [List.cons_append, jobStores, endPos, ih, List.append_assoc]

theorem JobsOk.bounds {len rl ro : Nat} : ∀ (js : List Job) (l w : Nat), JobsOk len l w rl ro js → w + 4 ≤ len → w % 4 = 0 →
    endPos w js + 4 ≤ len ∧ endPos w js % 4 = 0 ∧ Le l w (endLap l js) (endPos w js) := by
  intro js
  induction js with
  | nil => intro l w _ h h'; exact ⟨h, h', .inr ⟨rfl, Nat.le_refl _⟩⟩
  | cons x js ih =>
    rintro l w h h2 h3
    obtain ⟨m, _ | _⟩ := x
    · have := h.1.2.1
      obtain ⟨a, b, c⟩ := ih l (w + 4 + m.length) h.2.2.2 (by have := h.2.1; omega) (by omega)
      refine ⟨a, b, ?_⟩
      unfold Le at c ⊢
      simp only [endPos, endLap]
      omega
    · have := h.1.2.1
      obtain ⟨a, b, c⟩ := ih (l + 1) (4 + m.length) h.2.2.2.2 (by have := h.2.1; omega) (by omega)
      refine ⟨a, b, ?_⟩
      unfold Le at c ⊢
      simp only [endPos, endLap]
      omega

theorem fillStores_inside {len w : Nat} : ∀ (bs : List Byte) (k : Nat), w + 4 + k + bs.length ≤ len →
    ∀ x ∈ fillStores w k bs, x.inside len = true := by
  intro bs
  induction bs with
  | nil => intro k _ x hx; cases hx
  | cons b bs ih =>
    intro k h x hx
    simp only [List.length_cons] at h
    rcases List.mem_cons.1 hx with rfl | hx
    · simp only [Store.inside, decide_eq_true_eq]; omega
    · exact ih (k + 1) (by omega) x hx

theorem record_inside {len w : Nat} {m : Msg} (h : w + m.length + 8 ≤ len) (k : Nat) (hk : k ≤ m.length) :
    ∀ x ∈ fillStores w k (m.drop k) ++ tailStores w m, x.inside len = true := by
  intro x hx
  rcases List.mem_append.1 hx with hx | hx
  · exact fillStores_inside _ k (by simp only [List.length_drop]; omega) x hx
  · simp only [tailStores, List.mem_cons, List.not_mem_nil, or_false] at hx
    rcases hx with rfl | rfl <;> simp only [Store.inside, decide_eq_true_eq] <;> omega

theorem record_inside0 {len w : Nat} {m : Msg} (h : w + m.length + 8 ≤ len) :
    ∀ x ∈ fillStores w 0 m ++ tailStores w m, x.inside len = true := by
  have := record_inside h 0 (Nat.zero_le _)
  simpa using this

theorem jobStores_inside {len rl ro : Nat} : ∀ (js : List Job) (l w : Nat), JobsOk len l w rl ro js → w + 4 ≤ len →
    ∀ x ∈ jobStores w js, x.inside len = true := by
  intro js
  induction js with
  | nil => intro l w _ _ x hx; cases hx
  | cons j js ih =>
    intro l w h h2 x hx
    obtain ⟨m, _ | _⟩ := j
    · rcases List.mem_append.1 hx with hx | hx
      · exact record_inside0 h.2.1 x hx
      · exact ih l _ h.2.2.2 (by have := h.2.1; omega) x hx
    · have hl := h.2.1
      rcases List.mem_append.1 hx with hx | hx
      · rcases List.mem_cons.1 hx with rfl | hx
        · simp only [Store.inside, decide_eq_true_eq]; omega
        rcases List.mem_cons.1 hx with rfl | hx
        · simp only [Store.inside, decide_eq_true_eq]; omega
        exact record_inside0 (by omega) x hx
      · exact ih (l + 1) _ h.2.2.2.2 (by omega) x hx

theorem PInv.wcOf {q : Pipe} {wc : Nat} {p : PPc} (h : PInv q wc p) : wcOf p q.wr = wc := by
  cases p <;> simp only [PInv] at h <;> simp only [LightPipe.wcOf]
  · exact h.1
  · exact h.2.2.2.1.symm
  · exact h.2.2.2.1.symm
  · exact h.2.1
  · exact h.2.1
  · exact h.2.1

/-- everything the producer still has to store is inside, and so is the next record's first word -/
theorem PInv.ahead {q : Pipe} {wc : Nat} {p : PPc} (h : PInv q wc p) (hrl : q.rd + 4 ≤ q.len) (hwl : wc + 4 ≤ q.len) (hwc : wc % 4 = 0) :
    (∀ x ∈ pend p q.wr, x.inside q.len = true) ∧ nextPos p q.wr + 4 ≤ q.len ∧ nextPos p q.wr % 4 = 0 ∧
      ∀ lf, Le lf wc (lf + turn p) (nextPos p q.wr) := by
  cases p <;> simp only [PInv] at h <;> simp only [pend, nextPos, turn, Le]
  case idle => exact ⟨fun x hx => (by cases hx), by omega, by omega, fun lf => by omega⟩
  case loopStop m old =>
    obtain ⟨⟨m1, m2, m3⟩, h2, h3, h4, h5, h6⟩ := h
    refine ⟨fun x hx => ?_, by omega, by omega, fun lf => by omega⟩
    rcases List.mem_cons.1 hx with rfl | hx
    · simp only [Store.inside, decide_eq_true_eq]; omega
    rcases List.mem_cons.1 hx with rfl | hx
    · simp only [Store.inside, decide_eq_true_eq]; omega
    exact record_inside0 (by omega) x hx
  case loopLoop m old =>
    obtain ⟨⟨m1, m2, m3⟩, h2, h3, h4, h5, h6, -⟩ := h
    refine ⟨fun x hx => ?_, by omega, by omega, fun lf => by omega⟩
    rcases List.mem_cons.1 hx with rfl | hx
    · simp only [Store.inside, decide_eq_true_eq]; omega
    exact record_inside0 (by omega) x hx
  case fill m k =>
    obtain ⟨⟨m1, m2, m3⟩, h2, h3, h4, h5, h6, -⟩ := h
    exact ⟨record_inside (by omega) k h6, by omega, by omega, fun lf => by omega⟩
  case prodStop m =>
    obtain ⟨⟨m1, m2, m3⟩, h2, h3, h4, h5, -⟩ := h
    refine ⟨fun x hx => record_inside0 (w := q.wr) (m := m) (by omega) x (List.mem_append_right _ hx), by omega, by omega, fun lf => by omega⟩
  case prodLen m old =>
    obtain ⟨⟨m1, m2, m3⟩, h2, h3, h4, h5, -⟩ := h
    refine ⟨fun x hx => ?_, by omega, by omega, fun lf => by omega⟩
    simp only [List.mem_singleton] at hx
    subst hx
    simp only [Store.inside, decide_eq_true_eq]; omega

/-- the values of `readHead` on their way to the memory, with their laps -/
def Path (l o : Nat) : List Nat → Nat → Nat → Prop
  | [], l', o' => l = l' ∧ o = o'
  | x :: xs, l', o' => ∃ k, Le l o k x ∧ Path k x xs l' o'

theorem Path.le : ∀ {xs : List Nat} {l o l' o' : Nat}, Path l o xs l' o' → Le l o l' o' := by
  intro xs
  induction xs with
  | nil => rintro l o l' o' ⟨rfl, rfl⟩; exact .inr ⟨rfl, Nat.le_refl _⟩
  | cons x xs ih =>
    rintro l o l' o' ⟨k, h1, h2⟩
    have := ih h2
    unfold Le at *
    omega

theorem Path.snoc {k y : Nat} : ∀ {xs : List Nat} {l o l' o' : Nat}, Path l o xs l' o' → Le l' o' k y → Path l o (xs ++ [y]) k y := by
  intro xs
  induction xs with
  | nil => rintro l o l' o' ⟨rfl, rfl⟩ h; exact ⟨k, h, rfl, rfl⟩
  | cons x xs ih => rintro l o l' o' ⟨j, h1, h2⟩ h; exact ⟨j, h1, ih h2 h⟩

theorem Path.last : ∀ {xs : List Nat} {l o l' o' : Nat}, Path l o xs l' o' → xs.getLastD o = o' := by
  intro xs
  induction xs with
  | nil => rintro l o l' o' ⟨-, rfl⟩; rfl
  | cons x xs ih =>
    rintro l o l' o' ⟨k, -, h2⟩
    rw [List.getLastD_cons]
    exact ih h2

/-- the machine with buffers `t` against the sequential machine `s` that has made the stores in memory; `todo` are the messages
that the producer of `t` has accepted and that of `s` has not begun -/
structure Rel (t : Tso) (s : St) (todo : List Job) (lf lr lv : Nat) : Prop where
  inv : Inv s
  mem : s.q.mem = t.mem
  len : s.q.len = t.len
  c : s.c = t.c
  got : s.got = t.got
  lap1 : s.q.rd ≤ wcOf s.p s.q.wr → lr = lf
  lap2 : wcOf s.p s.q.wr < s.q.rd → lr + 1 = lf
  jobs : JobsOk t.len (lf + turn s.p) (nextPos s.p s.q.wr) lr s.q.rd todo
  stores : t.pbuf ++ pend t.p t.wr = pend s.p s.q.wr ++ jobStores (nextPos s.p s.q.wr) todo
  sent : t.sent ++ cur t.p = s.sent ++ cur s.p ++ todo.map Prod.fst
  pos : nextPos t.p t.wr = endPos (nextPos s.p s.q.wr) todo
  rem : t.rem = t.len - t.wr
  zero : turn t.p = 1 → t.wr = 0
  path : Path lv t.seen t.cbuf lr s.q.rd
  ahead : let l := endLap (lf + turn s.p) todo
    l = lv ∧ t.seen ≤ nextPos t.p t.wr ∨ l = lv + 1 ∧ nextPos t.p t.wr + 4 ≤ t.seen
  mod : t.seen % 4 = 0 ∧ ∀ x ∈ t.cbuf, x % 4 = 0

theorem Rel.init (junk : Nat → Byte) (n : Nat) (h4 : 4 ≤ n) (h : n < 2 ^ 32) : Rel (initTso junk n) (initSt junk n) [] 0 0 0 where
  inv := inv_init junk n h4 h
  mem := rfl
  len := rfl
  c := rfl
  got := rfl
  lap1 := fun _ => rfl
  lap2 := fun h => absurd h (by simp [initSt, LightPipe.init])
  jobs := trivial
  stores := rfl
  sent := rfl
  pos := rfl
  rem := rfl
  zero := fun _ => rfl
  path := ⟨rfl, rfl⟩
  ahead := .inl ⟨rfl, Nat.le_refl _⟩
  mod := ⟨rfl, fun x hx => by cases hx⟩

/-- the position of the consumer, of the memory and of the producer, in this order -/
theorem Rel.order {t : Tso} {s : St} {todo : List Job} {lf lr lv : Nat} (R : Rel t s todo lf lr lv) :
    t.rd = s.q.rd ∧ Le lv t.seen lr s.q.rd ∧ Le lr s.q.rd (lf + turn s.p) (nextPos s.p s.q.wr) ∧
      Le (lf + turn s.p) (nextPos s.p s.q.wr) (endLap (lf + turn s.p) todo) (nextPos t.p t.wr) ∧
      nextPos t.p t.wr + 4 ≤ t.len ∧ nextPos t.p t.wr % 4 = 0 ∧ nextPos s.p s.q.wr + 4 ≤ t.len ∧
      (∀ x ∈ pend t.p t.wr, x.inside t.len = true) ∧ s.q.rd % 4 = 0 := by
  obtain ⟨wc, Q, hL, hlen, hrd, hwc, hP, hC, hs⟩ := R.inv
  obtain ⟨h1, h2, h3, h4⟩ := hP.ahead hL.rd_le hL.wc_le hwc
  rw [R.len] at h2
  have hb := JobsOk.bounds todo _ _ R.jobs h2 h3
  rw [← R.pos] at hb
  refine ⟨R.path.last, R.path.le, ?_, hb.2.2, hb.1, hb.2.1, h2, ?_, hrd⟩
  · have a := h4 lf
    have b := R.lap1
    have c := R.lap2
    rw [hP.wcOf] at b c
    unfold Le at *
    omega
  · intro x hx
    have : x ∈ t.pbuf ++ pend t.p t.wr := List.mem_append_right _ hx
    rw [R.stores] at this
    rcases List.mem_append.1 this with h | h
    · rw [← R.len]; exact h1 x h
    · exact jobStores_inside todo _ _ R.jobs h2 x h

/-- the producer calls `hLp_getWriteBuffer` -/
theorem Rel.send {t : Tso} {s : St} {todo : List Job} {lf lr lv : Nat} (R : Rel t s todo lf lr lv) (hp : t.p = .idle) {m : Msg} (hm : MsgOk m) :
    ∃ todo', Rel (t.beginSend m) s todo' lf lr lv := by
  obtain ⟨-, o2, o3, o4, o5, o6, o7, -, -⟩ := R.order
  have hlen : t.len < 2 ^ 32 := by
    obtain ⟨wc, Q, -, h, -⟩ := R.inv
    rw [R.len] at h; exact h
  have hr := R.rem
  have ha := R.ahead
  have hpos := R.pos
  have hst := R.stores
  have hsent := R.sent
  obtain ⟨hm0, hm4, hm8⟩ := hm
  have hmod := R.mod.1
  simp only [hp, nextPos_idle, pend_idle, cur_idle, List.append_nil] at o4 o5 o6 ha hpos hst hsent
  have htot : (m.length + 8) % 2 ^ 32 = m.length + 8 := Nat.mod_eq_of_lt hm8
  unfold Tso.beginSend decision
  rw [htot]
  simp only
  by_cases h1 : m.length + 8 ≤ t.rem
  · rw [if_pos h1]
    by_cases h2 : t.wr < t.seen ∧ t.wr + 4 + m.length ≥ t.seen
    · rw [if_pos h2]; exact ⟨todo, R⟩
    · rw [if_neg h2]
      have hj : JobsOk t.len (endLap (lf + turn s.p) todo) (endPos (nextPos s.p s.q.wr) todo) lr s.q.rd [(m, false)] := by
        rw [← hpos]
        refine ⟨⟨hm0, hm4, hm8⟩, by omega, ?_, trivial⟩
        unfold Le at *
        omega
      refine ⟨todo ++ [(m, false)], ⟨R.inv, R.mem, R.len, R.c, R.got, R.lap1, R.lap2, R.jobs.append _ _ _ _ hj, ?_, ?_, ?_, hr, ?_, R.path, ?_, R.mod⟩⟩
      · show t.pbuf ++ (fillStores t.wr 0 (m.drop 0) ++ tailStores t.wr m) = _
        rw [jobStores_append, ← List.append_assoc (pend s.p s.q.wr), ← hst, ← hpos]
        simp [jobStores]
      · show t.sent ++ [m] = _
        rw [hsent]; simp
      · show t.wr + 4 + m.length = _
        rw [endPos_append, ← hpos]; rfl
      · intro h; cases h
      · simp only [endLap_append, endLap, nextPos]
        omega
  · rw [if_neg h1]
    by_cases h2 : m.length + 8 ≤ t.len
    · rw [if_pos h2]
      by_cases h3 : t.wr < t.seen ∨ m.length + 8 > t.seen
      · rw [if_pos h3]; exact ⟨todo, R⟩
      · rw [if_neg h3]
        have hj : JobsOk t.len (endLap (lf + turn s.p) todo) (endPos (nextPos s.p s.q.wr) todo) lr s.q.rd [(m, true)] := by
          rw [← hpos]
          refine ⟨⟨hm0, hm4, hm8⟩, by omega, ?_, ?_, trivial⟩ <;> unfold Le at * <;> omega
        refine ⟨todo ++ [(m, true)], ⟨R.inv, R.mem, R.len, R.c, R.got, R.lap1, R.lap2, R.jobs.append _ _ _ _ hj, ?_, ?_, ?_, rfl, ?_, R.path, ?_, R.mod⟩⟩
        · show t.pbuf ++ pend (.loopStop m t.wr) 0 = _
          rw [jobStores_append, ← List.append_assoc (pend s.p s.q.wr), ← hst, ← hpos]
          simp [jobStores, pend]
        · show t.sent ++ [m] = _
          rw [hsent]; simp
        · show 4 + m.length = _
          rw [endPos_append]; rfl
        · intro _; rfl
        · simp only [endLap_append, endLap, nextPos]
          omega
    · rw [if_neg h2]; exact ⟨todo, R⟩

theorem Tso.store_ok {t : Tso} {x : Store} (h : x.inside t.len = true) : t.store x = .ok { t with pbuf := t.pbuf ++ [x] } := by
  simp [Tso.store, h]

/-- the producer makes a step -/
theorem Rel.prod {t : Tso} {s : St} {todo : List Job} {lf lr lv : Nat} (R : Rel t s todo lf lr lv) :
    ∃ t', t.prodStep = .ok t' ∧ Rel t' s todo lf lr lv := by
  obtain ⟨-, -, -, -, o5, o6, -, o8, -⟩ := R.order
  have hst := R.stores
  have hsent := R.sent
  have hpos := R.pos
  have hz := R.zero
  have ha := R.ahead
  have hr := R.rem
  unfold Tso.prodStep
  cases hp : t.p with
  | idle => exact ⟨t, rfl, R⟩
  | loopStop m old =>
    rw [hp] at o5 o6 o8 hst hsent hpos hz ha
    simp only [Tso.store_ok (o8 (.word 0 STOP) (by simp [pend])), bind, Except.bind]
    refine ⟨_, rfl, ⟨R.inv, R.mem, R.len, R.c, R.got, R.lap1, R.lap2, R.jobs, ?_, hsent, hpos, hr, hz, R.path, ha, R.mod⟩⟩
    rw [← hst]; simp [pend]
  | loopLoop m old =>
    rw [hp] at o5 o6 o8 hst hsent hpos hz ha
    have hw : t.wr = 0 := hz rfl
    simp only [Tso.store_ok (o8 (.word old LOOP) (by simp [pend])), bind, Except.bind]
    refine ⟨_, rfl, ⟨R.inv, R.mem, R.len, R.c, R.got, R.lap1, R.lap2, R.jobs, ?_, hsent, ?_, hr, ?_, R.path, ?_, R.mod⟩⟩
    · rw [← hst]; simp [pend, hw]
    · rw [← hpos]; simp only [nextPos]; omega
    · intro h; cases h
    · simp only [nextPos] at ha ⊢; omega
  | fill m k =>
    rw [hp] at o5 o6 o8 hst hsent hpos hz ha
    simp only
    cases hmk : m[k]? with
    | some b =>
      have hd : m.drop k = b :: m.drop (k + 1) := by
        obtain ⟨hk, rfl⟩ := List.getElem?_eq_some_iff.1 hmk
        exact List.drop_eq_getElem_cons hk
      simp only [Tso.store_ok (o8 (.byte (t.wr + 4 + k) b) (by simp [pend, hd, fillStores])), bind, Except.bind]
      refine ⟨_, rfl, ⟨R.inv, R.mem, R.len, R.c, R.got, R.lap1, R.lap2, R.jobs, ?_, hsent, hpos, hr, hz, R.path, ha, R.mod⟩⟩
      rw [← hst]; simp [pend, hd, fillStores]
    | none =>
      have hd : m.drop k = [] := List.drop_eq_nil_of_le (List.getElem?_eq_none_iff.1 hmk)
      refine ⟨_, rfl, ⟨R.inv, R.mem, R.len, R.c, R.got, R.lap1, R.lap2, R.jobs, ?_, hsent, hpos, hr, hz, R.path, ha, R.mod⟩⟩
      rw [← hst]; simp [pend, hd, fillStores]
  | prodStop m =>
    rw [hp] at o5 o6 o8 hst hsent hpos hz ha
    simp only [nextPos] at o5 o6 ha
    simp only
    rw [if_pos (by omega)]
    have hin := o8 (.word (t.wr + 4 + m.length) STOP) (by simp [pend, tailStores])
    rw [Nat.add_assoc] at hin
    rw [Tso.store_ok (by exact hin)]
    simp only [bind, Except.bind]
    refine ⟨_, rfl, ⟨R.inv, R.mem, R.len, R.c, R.got, R.lap1, R.lap2, R.jobs, ?_, hsent, ?_, ?_, ?_, R.path, ?_, R.mod⟩⟩
    · rw [← hst]; simp [pend, tailStores, Nat.add_assoc]
    · rw [← hpos]; simp only [nextPos]; omega
    · simp only; omega
    · intro h; cases h
    · simp only [nextPos]; omega
  | prodLen m old =>
    rw [hp] at o5 o6 o8 hst hsent hpos hz ha
    simp only [Tso.store_ok (o8 (.word old m.length) (by simp [pend])), bind, Except.bind]
    refine ⟨_, rfl, ⟨R.inv, R.mem, R.len, R.c, R.got, R.lap1, R.lap2, R.jobs, ?_, ?_, hpos, hr, hz, R.path, ha, R.mod⟩⟩
    · rw [← hst]; simp [pend]
    · rw [← hsent]; simp [cur]

/-- a store of the consumer reaches the memory -/
theorem Rel.cflush {t : Tso} {s : St} {todo : List Job} {lf lr lv : Nat} (R : Rel t s todo lf lr lv) :
    ∃ lv', Rel t.cflush s todo lf lr lv' := by
  obtain ⟨-, o2, o3, o4, o5, o6, -, -, -⟩ := R.order
  have hpath := R.path
  have hmod := R.mod
  have ha := R.ahead
  unfold Tso.cflush
  cases hc : t.cbuf with
  | nil => exact ⟨lv, R⟩
  | cons x xs =>
    rw [hc] at hpath hmod
    obtain ⟨k, h1, h2⟩ := hpath
    have h3 := h2.le
    refine ⟨k, ⟨R.inv, R.mem, R.len, R.c, R.got, R.lap1, R.lap2, R.jobs, R.stores, R.sent, R.pos, R.rem, R.zero, h2, ?_,
      ⟨hmod.2 x (by simp), fun y hy => hmod.2 y (by simp [hy])⟩⟩⟩
    simp only at ha ⊢
    unfold Le at *
    omega

/-- a step of the sequential consumer moves the read head forward -/
theorem cons_moves {s s' : St} (hI : Inv s) (h : LightPipe.consStep s = .ok s') :
    s'.p = s.p ∧ s'.q.wr = s.q.wr ∧ s'.q.mem = s.q.mem ∧ s'.q.len = s.q.len ∧ s'.sent = s.sent ∧
    (s'.q.rd = s.q.rd ∨ (wcOf s.p s.q.wr < s.q.rd ∧ s'.q.rd = 0) ∨
      (s.q.rd ≤ s'.q.rd ∧ (s.q.rd ≤ wcOf s.p s.q.wr → s'.q.rd ≤ wcOf s.p s.q.wr))) := by
  obtain ⟨wc, Q, hL, hlen, hrd, hwc, hP, hC, hs⟩ := hI
  have hrl := hL.rd_le
  rw [hP.wcOf]
  unfold LightPipe.consStep at h
  cases hc : s.c with
  | idle =>
    rw [hc] at h
    simp only [ld32_ok hrl, bind, Except.bind] at h
    split at h
    · cases h; exact ⟨rfl, rfl, rfl, rfl, rfl, .inl rfl⟩
    · split at h <;> cases h <;> exact ⟨rfl, rfl, rfl, rfl, rfl, .inl rfl⟩
  | sawLoop =>
    rw [hc] at h hC
    cases h
    refine ⟨rfl, rfl, rfl, rfl, rfl, .inr (.inl ⟨?_, rfl⟩)⟩
    have hC : read32 s.q.mem s.q.rd = LOOP := hC
    rcases hL.head with h | ⟨_, hlt, hL0⟩ | ⟨m, Q', _, h, _, hm, _⟩
    · rw [hC] at h; exact absurd h.2 (by decide)
    · exact hlt
    · rw [hC] at h; have := hm.2.2; simp only [LOOP] at h; omega
  | reread =>
    rw [hc] at h
    simp only [ld32_ok hrl, bind, Except.bind] at h
    split at h <;> cases h <;> exact ⟨rfl, rfl, rfl, rfl, rfl, .inl rfl⟩
  | gotData =>
    rw [hc] at h
    simp only [ld32_ok hrl, bind, Except.bind] at h
    cases h; exact ⟨rfl, rfl, rfl, rfl, rfl, .inl rfl⟩
  | reading n k acc =>
    rw [hc] at h
    simp only at h
    split at h
    · cases hld : ld8 s.q (s.q.rd + 4 + k) with
      | error e => rw [hld] at h; cases h
      | ok b => rw [hld] at h; simp only [bind, Except.bind] at h; cases h; exact ⟨rfl, rfl, rfl, rfl, rfl, .inl rfl⟩
    · cases h; exact ⟨rfl, rfl, rfl, rfl, rfl, .inl rfl⟩
  | consume =>
    rw [hc] at h hC
    obtain ⟨m, Q', hQ, h'⟩ := hC
    simp only [ld32_ok hrl, bind, Except.bind] at h
    split at h
    · cases h
    · cases h
      refine ⟨rfl, rfl, rfl, rfl, rfl, .inr (.inr ⟨Nat.le_add_right _ _, ?_⟩)⟩
      intro hle
      rcases hL.head with g | ⟨_, g, _⟩ | ⟨m2, Q2, hQ2, h2, hb, hm, hbd, hL', _, hle2⟩
      · rw [g.1] at hQ; cases hQ
      · omega
      · rw [hQ] at hQ2; cases hQ2
        have := hle2 hle
        simp only [h']
        omega

/-- the consumers of both machines make the same step -/
theorem cons_same {t : Tso} {s s' : St} (h1 : s.q.mem = t.mem) (h2 : s.q.len = t.len) (h3 : s.q.rd = t.rd) (h4 : s.c = t.c) (h5 : s.got = t.got)
    (h : LightPipe.consStep s = .ok s') :
    ∃ t' e, t.consStep = .ok t' ∧ t' = { t with c := s'.c, got := s'.got, cbuf := t.cbuf ++ e } ∧
      (e = [] ∧ s'.q.rd = s.q.rd ∨ e = [s'.q.rd]) := by
  have l32 : ∀ a, t.load32 a = ld32 s.q a := fun a => by simp only [Tso.load32, ld32, h1, h2]
  have l8 : ∀ a, t.load8 a = ld8 s.q a := fun a => by simp only [Tso.load8, ld8, h1, h2]
  unfold LightPipe.consStep at h
  unfold Tso.consStep
  rw [← h4]
  cases hc : s.c with
  | idle =>
    rw [hc] at h
    simp only [l32, ← h3] at h ⊢
    cases hx : ld32 s.q s.q.rd with
    | error e => rw [hx] at h; cases h
    | ok x =>
      rw [hx] at h
      simp only [bind, Except.bind] at h ⊢
      by_cases e1 : x = LOOP
      · rw [if_pos e1] at h ⊢
        cases h
        exact ⟨_, [], rfl, by simp [h5], .inl ⟨rfl, rfl⟩⟩
      · rw [if_neg e1] at h ⊢
        by_cases e2 : x = STOP
        · rw [if_pos e2] at h ⊢
          cases h
          refine ⟨_, [], rfl, ?_, .inl ⟨rfl, rfl⟩⟩
          rw [h4, h5]; simp
        · rw [if_neg e2] at h ⊢
          cases h
          exact ⟨_, [], rfl, by simp [h5], .inl ⟨rfl, rfl⟩⟩
  | sawLoop =>
    rw [hc] at h
    cases h
    exact ⟨_, [0], rfl, by simp [h5], .inr rfl⟩
  | reread =>
    rw [hc] at h
    simp only [l32, ← h3] at h ⊢
    cases hx : ld32 s.q s.q.rd with
    | error e => rw [hx] at h; cases h
    | ok x =>
      rw [hx] at h
      simp only [bind, Except.bind] at h ⊢
      by_cases e1 : x = STOP
      · rw [if_pos e1] at h ⊢
        cases h
        exact ⟨_, [], rfl, by simp [h5], .inl ⟨rfl, rfl⟩⟩
      · rw [if_neg e1] at h ⊢
        cases h
        exact ⟨_, [], rfl, by simp [h5], .inl ⟨rfl, rfl⟩⟩
  | gotData =>
    rw [hc] at h
    simp only [l32, ← h3] at h ⊢
    cases hx : ld32 s.q s.q.rd with
    | error e => rw [hx] at h; cases h
    | ok x =>
      rw [hx] at h
      simp only [bind, Except.bind] at h ⊢
      cases h
      exact ⟨_, [], rfl, by simp [h5], .inl ⟨rfl, rfl⟩⟩
  | reading n k acc =>
    rw [hc] at h
    simp only [l8, ← h3] at h ⊢
    by_cases e1 : k < n
    · rw [if_pos e1] at h ⊢
      cases hx : ld8 s.q (s.q.rd + 4 + k) with
      | error e => rw [hx] at h; cases h
      | ok x =>
        rw [hx] at h
        simp only [bind, Except.bind] at h ⊢
        cases h
        exact ⟨_, [], rfl, by simp [h5], .inl ⟨rfl, rfl⟩⟩
    · rw [if_neg e1] at h ⊢
      cases h
      exact ⟨_, [], rfl, by simp [h5], .inl ⟨rfl, rfl⟩⟩
  | consume =>
    rw [hc] at h
    simp only [l32, ← h3] at h ⊢
    cases hx : ld32 s.q s.q.rd with
    | error e => rw [hx] at h; cases h
    | ok x =>
      rw [hx] at h
      simp only [bind, Except.bind] at h ⊢
      by_cases e1 : x = STOP
      · rw [if_pos e1] at h; cases h
      · rw [if_neg e1] at h ⊢
        cases h
        exact ⟨_, [_], rfl, by simp [h5], .inr rfl⟩

/-- the consumer makes a step -/
theorem Rel.cons {t : Tso} {s : St} {todo : List Job} {lf lr lv : Nat} (R : Rel t s todo lf lr lv) :
    ∃ t' s' lr', t.consStep = .ok t' ∧ Rel t' s' todo lf lr' lv ∧ LightPipe.consStep s = .ok s' ∧ t'.pbuf = t.pbuf ∧ t'.p = t.p ∧ t'.sent = t.sent := by
  obtain ⟨o1, o2, o3, o4, o5, o6, o7, -, o9⟩ := R.order
  obtain ⟨s', hs', hI'⟩ := inv_cons R.inv
  obtain ⟨m1, m2, m3, m4, m5, m6⟩ := cons_moves R.inv hs'
  obtain ⟨t', e, ht', rfl, he⟩ := cons_same R.mem R.len o1.symm R.c R.got hs'
  have a := R.lap1
  have b := R.lap2
  have hrd' : s'.q.rd % 4 = 0 := by obtain ⟨_, _, _, _, h, _⟩ := hI'; exact h
  have key : ∃ lr', Le lr s.q.rd lr' s'.q.rd ∧ (s'.q.rd ≤ wcOf s.p s.q.wr → lr' = lf) ∧ (wcOf s.p s.q.wr < s'.q.rd → lr' + 1 = lf) ∧
      (s'.q.rd = s.q.rd → lr' = lr) := by
    rcases m6 with h | ⟨h, h'⟩ | ⟨h, h'⟩
    · refine ⟨lr, ?_, ?_, ?_, ?_⟩ <;> (try unfold Le) <;> omega
    · refine ⟨lr + 1, ?_, ?_, ?_, ?_⟩ <;> (try unfold Le) <;> omega
    · refine ⟨lr, ?_, ?_, ?_, ?_⟩ <;> (try unfold Le) <;> omega
  obtain ⟨lr', k1, k2, k3, k4⟩ := key
  obtain ⟨wc, Q, hL, -, -, hwc, hP, -, -⟩ := R.inv
  have hah := (hP.ahead hL.rd_le hL.wc_le hwc).2.2.2 lf
  rw [← hP.wcOf] at hah
  refine ⟨_, s', lr', ht', ⟨hI', by rw [m3]; exact R.mem, by rw [m4]; exact R.len, rfl, rfl, by rw [m1, m2]; exact k2, by rw [m1, m2]; exact k3, ?_,
    by rw [m1, m2]; exact R.stores, by rw [m1, m5]; exact R.sent, by rw [m1, m2]; exact R.pos, R.rem, R.zero, ?_, by rw [m1]; exact R.ahead, ?_⟩,
    hs', rfl, rfl, rfl⟩
  · rw [m1, m2]
    refine JobsOk.mono (len := t.len) k1 todo _ _ R.jobs ?_
    unfold Le at *
    omega
  · rcases he with ⟨rfl, he⟩ | rfl
    · rw [he, k4 he]
      simpa using R.path
    · exact R.path.snoc k1
  · refine ⟨R.mod.1, fun x hx => ?_⟩
    rcases List.mem_append.1 hx with hx | hx
    · exact R.mod.2 x hx
    · rcases he with ⟨rfl, he⟩ | rfl
      · cases hx
      · simp only [List.mem_singleton] at hx
        rw [hx]; exact hrd'

/-- the sequential producer makes its next store -/
theorem flush_sc {s : St} (hI : Inv s) {x : Store} {xs : List Store} (hx : pend s.p s.q.wr = x :: xs) :
    ∃ s', Inv s' ∧ s'.q.mem = x.apply s.q.mem ∧ pend s'.p s'.q.wr = xs ∧ s'.q.len = s.q.len ∧ s'.q.rd = s.q.rd ∧ s'.c = s.c ∧ s'.got = s.got ∧
      s'.sent ++ cur s'.p = s.sent ++ cur s.p ∧ nextPos s'.p s'.q.wr = nextPos s.p s.q.wr ∧
      ∃ d, turn s'.p + d = turn s.p ∧ (d = 0 ∧ (s.q.rd ≤ wcOf s.p s.q.wr ↔ s.q.rd ≤ wcOf s'.p s'.q.wr) ∨
        d = 1 ∧ s.q.rd ≤ wcOf s.p s.q.wr ∧ wcOf s'.p s'.q.wr < s.q.rd) := by
  obtain ⟨s', hs', hI'⟩ := inv_prod hI
  have hI0 := hI
  obtain ⟨wc, Q, hL, hlen, hrd, hwc, hP, hC, hs⟩ := hI
  have hwl := hL.wc_le
  have hrl := hL.rd_le
  unfold LightPipe.prodStep at hs'
  cases hp : s.p with
  | idle => rw [hp] at hx; cases hx
  | loopStop m old =>
    rw [hp] at hx hs' hP
    obtain ⟨hm, hw, hr, he, hle, hsz⟩ := hP
    simp only [st32_ok (show 0 + 4 ≤ s.q.len by omega), bind, Except.bind] at hs'
    cases hs'
    cases hx
    exact ⟨_, hI', rfl, rfl, rfl, rfl, rfl, rfl, rfl, rfl, 0, rfl, .inl ⟨rfl, Iff.rfl⟩⟩
  | loopLoop m old =>
    rw [hp] at hx hs' hP
    obtain ⟨hm, hw, hr, he, hle, hsz, h0⟩ := hP
    subst he
    simp only [st32_ok hwl, bind, Except.bind] at hs'
    cases hs'
    cases hx
    refine ⟨_, hI', rfl, by simp [pend, hw], rfl, rfl, rfl, rfl, rfl, by simp [nextPos, hw], 1, rfl, .inr ⟨rfl, hle, ?_⟩⟩
    simp only [wcOf]
    omega
  | fill m k =>
    rw [hp] at hx hs' hP
    obtain ⟨hm, hw, hr, hl, hsp, hk, hb⟩ := hP
    simp only at hs'
    cases hmk : m[k]? with
    | some b =>
      have hkl : k < m.length := (List.getElem?_eq_some_iff.mp hmk).1
      have hd : m.drop k = b :: m.drop (k + 1) := by
        obtain ⟨hk, rfl⟩ := List.getElem?_eq_some_iff.1 hmk
        exact List.drop_eq_getElem_cons hk
      rw [hmk] at hs'
      simp only [st8_ok (show s.q.wr + 4 + k + 1 ≤ s.q.len by omega), bind, Except.bind] at hs'
      cases hs'
      simp only [pend, hd, fillStores, List.cons_append, List.cons.injEq] at hx
      obtain ⟨rfl, rfl⟩ := hx
      exact ⟨_, hI', rfl, rfl, rfl, rfl, rfl, rfl, rfl, rfl, 0, rfl, .inl ⟨rfl, Iff.rfl⟩⟩
    | none =>
      have hkl : m.length ≤ k := List.getElem?_eq_none_iff.mp hmk
      have hd : m.drop k = [] := List.drop_eq_nil_of_le hkl
      rw [hmk] at hs'
      cases hs'
      simp only [pend, hd, fillStores, List.nil_append, tailStores, List.cons.injEq] at hx
      obtain ⟨rfl, rfl⟩ := hx
      obtain ⟨s2, hs2, hI2⟩ := inv_prod hI'
      unfold LightPipe.prodStep at hs2
      simp only at hs2
      rw [if_pos (by omega), st32_ok (by simp only; omega)] at hs2
      simp only [bind, Except.bind] at hs2
      cases hs2
      refine ⟨_, hI2, ?_, rfl, rfl, rfl, rfl, rfl, rfl, ?_, 0, rfl, .inl ⟨rfl, Iff.rfl⟩⟩
      · simp only [Store.apply, Nat.add_assoc]
      · simp only [nextPos]; omega
  | prodStop m =>
    rw [hp] at hx hs' hP
    obtain ⟨hm, hw, hr, hl, hsp, hb⟩ := hP
    simp only at hs'
    rw [if_pos (by omega), st32_ok (by simp only; omega)] at hs'
    simp only [bind, Except.bind] at hs'
    cases hs'
    cases hx
    refine ⟨_, hI', ?_, rfl, rfl, rfl, rfl, rfl, rfl, ?_, 0, rfl, .inl ⟨rfl, Iff.rfl⟩⟩
    · simp only [Store.apply, Nat.add_assoc]
    · simp only [nextPos]; omega
  | prodLen m old =>
    rw [hp] at hx hs' hP
    obtain ⟨hm, he, hw, hr, hl, hsp, hb, hst⟩ := hP
    subst he
    simp only [st32_ok hwl, bind, Except.bind] at hs'
    cases hs'
    cases hx
    refine ⟨_, hI', rfl, rfl, rfl, rfl, rfl, rfl, by simp [cur], rfl, 0, rfl, .inl ⟨rfl, ?_⟩⟩
    simp only [wcOf]
    omega

/-- the sequential producer begins the next job -/
theorem begin_sc {s : St} (hI : Inv s) (hp : s.p = .idle) {m : Msg} {b : Bool} {js : List Job} {lf lr : Nat} (h1 : s.q.rd ≤ wcOf s.p s.q.wr → lr = lf)
    (h2 : wcOf s.p s.q.wr < s.q.rd → lr + 1 = lf) (hj : JobsOk s.q.len (lf + turn s.p) (nextPos s.p s.q.wr) lr s.q.rd ((m, b) :: js)) :
    ∃ s', Inv s' ∧ s'.q.mem = s.q.mem ∧ s'.q.len = s.q.len ∧ s'.q.rd = s.q.rd ∧ s'.c = s.c ∧ s'.got = s.got ∧
      s'.sent ++ cur s'.p = s.sent ++ [m] ∧ wcOf s'.p s'.q.wr = wcOf s.p s.q.wr ∧ s'.p ≠ .idle ∧
      pend s'.p s'.q.wr ++ jobStores (nextPos s'.p s'.q.wr) js = jobStores (nextPos s.p s.q.wr) ((m, b) :: js) ∧
      endPos (nextPos s'.p s'.q.wr) js = endPos (nextPos s.p s.q.wr) ((m, b) :: js) ∧
      endLap (lf + turn s'.p) js = endLap (lf + turn s.p) ((m, b) :: js) ∧
      JobsOk s.q.len (lf + turn s'.p) (nextPos s'.p s'.q.wr) lr s.q.rd js := by
  obtain ⟨wc, Q, hL, hlen, hrd, hwc, hP, hC, hs⟩ := hI
  have hwl := hL.wc_le
  rw [hP.wcOf] at h1 h2 ⊢
  rw [hp] at hP hj ⊢
  obtain ⟨hw, hr⟩ := hP
  cases b with
  | false =>
    obtain ⟨j1, j2, j3, j4⟩ := hj
    simp only [nextPos_idle, turn] at j2 j3 j4
    refine ⟨{ s with p := .fill m 0 }, ⟨wc, Q, hL, hlen, hrd, hwc, ?_, hC, hs⟩, rfl, rfl, rfl, rfl, rfl, rfl, hw, by simp, ?_, rfl, rfl, j4⟩
    · refine ⟨j1, hw, hr, by simp only; omega, ?_, by omega, fun i hi => absurd hi (by omega)⟩
      simp only; omega
    · simp [pend, jobStores, nextPos]
  | true =>
    obtain ⟨j1, j2, j3, j4, j5⟩ := hj
    simp only [turn] at j3 j5
    refine ⟨{ s with q := { s.q with wr := 0, rem := s.q.len }, p := .loopStop m s.q.wr }, ⟨wc, Q, hL, hlen, hrd, hwc, ?_, hC.frame rfl rfl, hs⟩,
      rfl, rfl, rfl, rfl, rfl, rfl, hw, by simp, ?_, rfl, rfl, j5⟩
    · refine ⟨j1, rfl, rfl, hw.symm, ?_, j4⟩
      simp only; omega
    · simp [pend, jobStores, nextPos]

/-- a store of the producer reaches the memory -/
theorem Rel.pflush {t : Tso} {s : St} {todo : List Job} {lf lr lv : Nat} (R : Rel t s todo lf lr lv) :
    ∃ s' todo' lf', Rel t.pflush s' todo' lf' lr lv := by
  unfold Tso.pflush
  cases hb : t.pbuf with
  | nil => exact ⟨s, todo, lf, R⟩
  | cons x xs =>
    have hst := R.stores
    rw [hb] at hst
    -- a sequential state whose producer is about to make the store
    have key : ∃ s1 todo1, Rel t s1 todo1 lf lr lv ∧ ∃ ys, pend s1.p s1.q.wr = x :: ys := by
      cases hpe : pend s.p s.q.wr with
      | cons y ys =>
        rw [hpe] at hst
        have : x = y := by simp only [List.cons_append, List.cons.injEq] at hst; exact hst.1
        subst this
        exact ⟨s, todo, R, ys, hpe⟩
      | nil =>
        have hidle : s.p = .idle := by
          cases hp : s.p <;> rw [hp] at hpe <;> simp [pend, tailStores] at hpe
        cases htd : todo with
        | nil => rw [hpe, htd] at hst; cases hst
        | cons j js =>
          obtain ⟨m, b⟩ := j
          have hj := R.jobs
          rw [htd, ← R.len] at hj
          obtain ⟨s1, e1, e2, e3, e4, e5, e6, e7, e8, e9, e10, e11, e12, e13⟩ := begin_sc R.inv hidle R.lap1 R.lap2 hj
          have hst' := R.stores
          have hpos := R.pos
          have hah := R.ahead
          have hsent := R.sent
          rw [htd] at hst' hpos hah hsent
          rw [hpe, List.nil_append, ← e10] at hst'
          refine ⟨s1, js, ⟨e1, e2.trans R.mem, e3.trans R.len, e5.trans R.c, e6.trans R.got, by rw [e4, e8]; exact R.lap1,
            by rw [e4, e8]; exact R.lap2, by rw [e4, ← R.len]; exact e13, hst', ?_, by rw [e11]; exact hpos, R.rem, R.zero, by rw [e4]; exact R.path,
            by rw [e12]; exact hah, R.mod⟩, ?_⟩
          · rw [e7, hsent, hidle]; simp [cur]
          · rw [hb] at hst'
            cases hq : pend s1.p s1.q.wr with
            | nil =>
              exfalso; apply e9
              cases hp : s1.p <;> rw [hp] at hq <;> simp [pend, tailStores] at hq
            | cons y ys =>
              rw [hq] at hst'
              simp only [List.cons_append, List.cons.injEq] at hst'
              exact ⟨ys, by rw [hst'.1]⟩
    obtain ⟨s1, todo1, R1, ys, hys⟩ := key
    obtain ⟨s2, f1, f2, f3, f4, f5, f6, f7, f8, f9, d, f10, f11⟩ := flush_sc R1.inv hys
    have hst := R1.stores
    rw [hb, hys] at hst
    simp only [List.cons_append, List.cons.injEq, true_and] at hst
    have a := R1.lap1
    have b := R1.lap2
    have el : lf + d + turn s2.p = lf + turn s1.p := by omega
    refine ⟨s2, todo1, lf + d, ⟨f1, by rw [f2, R1.mem], f4.trans R1.len, f6.trans R1.c, f7.trans R1.got, ?_, ?_, by rw [f5, el, f9]; exact R1.jobs,
      ?_, ?_, by rw [f9]; exact R1.pos, R1.rem, R1.zero, by rw [f5]; exact R1.path, by rw [el]; exact R1.ahead, R1.mod⟩⟩
    · rw [f5]; omega
    · rw [f5]; omega
    · show xs ++ pend t.p t.wr = _
      rw [f3, f9]; exact hst
    · rw [f8]; exact R1.sent

/-- the messages whose length word is in memory were sent -/
theorem Rel.committed {t : Tso} {s : St} {todo : List Job} {lf lr lv : Nat} (R : Rel t s todo lf lr lv) : s.sent <+: t.sent := by
  have hsent := R.sent
  have hst := R.stores
  cases hp : t.p with
  | idle =>
    rw [hp] at hsent
    exact ⟨cur s.p ++ todo.map Prod.fst, by rw [← List.append_assoc, ← hsent]; simp [cur]⟩
  | _ =>
    rw [hp] at hsent hst
    have hne : pend s.p s.q.wr ++ jobStores (nextPos s.p s.q.wr) todo ≠ [] := by
      rw [← hst]; simp [pend, tailStores]
    have hne' : cur s.p ++ todo.map Prod.fst ≠ [] := by
      intro h
      obtain ⟨h1, h2⟩ := List.append_eq_nil_iff.1 h
      have h3 : s.p = .idle := by
        cases hq : s.p <;> rw [hq] at h1 <;> simp [cur] at h1
      have h4 : todo = [] := List.map_eq_nil_iff.1 h2
      rw [h3, h4] at hne
      exact hne rfl
    obtain ⟨ini, y, e⟩ : ∃ ini y, cur s.p ++ todo.map Prod.fst = ini ++ [y] :=
      ⟨_, _, (List.dropLast_concat_getLast hne').symm⟩
    rw [List.append_assoc, e, ← List.append_assoc] at hsent
    exact ⟨ini, (List.append_inj' hsent rfl).1.symm⟩

end Verif.LightPipe
