import Verif.LightPipeTsoProofs
import Verif.Props.LightPipe
/-!
# Properties C01, C02 on a machine with store buffers (x86-TSO)

Observables (`Verif.LightPipe.Tso`): `sent`, the payloads for which `hLp_produce` has returned, and `got`, the payloads that the consumer has read.
-/
namespace Verif.LightPipe

/-- all messages are non-empty, whole numbers of 32-bit words and shorter than `2^32 - 8` bytes -/
def WordSized (sched : List TAct) : Prop :=
  ∀ m, TAct.send m ∈ sched → 0 < m.length ∧ m.length % 4 = 0 ∧ m.length + 8 < 2 ^ 32

theorem tso_run {t : Tso} {s : St} {todo : List Job} {lf lr lv : Nat} (R : Rel t s todo lf lr lv) (sched : List TAct) (h : WordSized sched) :
    ∃ t' s' todo' lf' lr' lv', t.run sched = .ok t' ∧ Rel t' s' todo' lf' lr' lv' := by
  induction sched generalizing t s todo lf lr lv with
  | nil => exact ⟨t, s, todo, lf, lr, lv, rfl, R⟩
  | cons a as ih =>
    obtain ⟨t1, s1, todo1, lf1, lr1, lv1, h1, R1⟩ : ∃ t' s' todo' lf' lr' lv', t.step a = .ok t' ∧ Rel t' s' todo' lf' lr' lv' := by
      cases a with
      | send m =>
        simp only [Tso.step]
        split
        · rename_i hp
          obtain ⟨todo', R'⟩ := R.send hp (h m (by simp))
          exact ⟨_, s, todo', lf, lr, lv, rfl, R'⟩
        · exact ⟨t, s, todo, lf, lr, lv, rfl, R⟩
      | prod =>
        obtain ⟨t', h1, R'⟩ := R.prod
        exact ⟨t', s, todo, lf, lr, lv, h1, R'⟩
      | cons =>
        obtain ⟨t', s', lr', h1, R', -⟩ := R.cons
        exact ⟨t', s', todo, lf, lr', lv, h1, R'⟩
      | pflush =>
        obtain ⟨s', todo', lf', R'⟩ := R.pflush
        exact ⟨_, s', todo', lf', lr, lv, rfl, R'⟩
      | cflush =>
        obtain ⟨lv', R'⟩ := R.cflush
        exact ⟨_, s, todo, lf, lr, lv', rfl, R'⟩
    simp only [Tso.run, h1]
    exact ih R1 fun m hm => h m (by simp [hm])

/-- **C02 with store buffers.**  Whatever the threads do and whenever their stores reach the memory, no access is outside the buffer and
no assertion of the pipe fails.  (Partial: word-sized messages, as `pipe_memory_safe_partial`.) -/
theorem tso_memory_safe_partial (junk : Nat → Byte) (numBytes : Nat) (h4 : 4 ≤ numBytes) (h32 : numBytes < 2 ^ 32) (sched : List TAct)
    (h : WordSized sched) : ∃ t, (initTso junk numBytes).run sched = .ok t :=
  let ⟨t, _, _, _, _, _, ht, _⟩ := tso_run (Rel.init junk numBytes h4 h32) sched h
  ⟨t, ht⟩

/-- **C01 with store buffers, safety.**  What the consumer has read is a prefix of what has been sent. -/
theorem tso_fifo_partial (junk : Nat → Byte) (numBytes : Nat) (h4 : 4 ≤ numBytes) (h32 : numBytes < 2 ^ 32) (sched : List TAct)
    (h : WordSized sched) (t : Tso) (hr : (initTso junk numBytes).run sched = .ok t) : t.got <+: t.sent := by
  obtain ⟨t', s, todo, lf, lr, lv, ht, R⟩ := tso_run (Rel.init junk numBytes h4 h32) sched h
  rw [hr] at ht
  cases ht
  obtain ⟨wc, Q, -, -, -, -, -, -, hg⟩ := R.inv
  rw [← R.got]
  exact List.IsPrefix.trans ⟨_, hg.symm⟩ R.committed

theorem tso_cons_run {t : Tso} {s s' : St} {todo : List Job} {lf lr lv : Nat} (R : Rel t s todo lf lr lv) (k : Nat)
    (hr : run s (consSteps k) = .ok s') : ∃ t', t.run (List.replicate k .cons) = .ok t' ∧ t'.got = s'.got := by
  induction k generalizing t s lr with
  | zero => cases hr; exact ⟨t, rfl, R.got.symm⟩
  | succ k ih =>
    obtain ⟨t1, s1, lr1, h1, R1, h2, -⟩ := R.cons
    simp only [consSteps, List.replicate_succ, run, step, h2] at hr
    obtain ⟨t', h3, h4⟩ := ih R1 hr
    exact ⟨t', by simp only [List.replicate_succ, Tso.run, Tso.step, h1]; exact h3, h4⟩

theorem tso_flush_run {t : Tso} {s : St} {todo : List Job} {lf lr lv : Nat} (R : Rel t s todo lf lr lv) : ∀ j, t.pbuf.length = j →
    ∃ t' s' todo' lf', t.run (List.replicate j .pflush) = .ok t' ∧ Rel t' s' todo' lf' lr lv ∧ t'.pbuf = [] ∧ t'.p = t.p ∧ t'.sent = t.sent := by
  intro j
  induction j generalizing t s todo lf with
  | zero => intro hj; exact ⟨t, s, todo, lf, rfl, R, List.eq_nil_of_length_eq_zero hj, rfl, rfl⟩
  | succ j ih =>
    intro hj
    obtain ⟨s1, todo1, lf1, R1⟩ := R.pflush
    cases hb : t.pbuf with
    | nil => rw [hb] at hj; cases hj
    | cons x xs =>
      have e : t.pflush = { t with mem := x.apply t.mem, pbuf := xs } := by unfold Tso.pflush; rw [hb]
      rw [hb] at hj
      obtain ⟨t', s', todo', lf', h1, h2, h3, h4, h5⟩ := ih R1 (by rw [e]; simpa using hj)
      refine ⟨t', s', todo', lf', ?_, h2, h3, by rw [h4, e], by rw [h5, e]⟩
      simp only [List.replicate_succ, Tso.run, Tso.step]
      exact h1

/-- **C01 with store buffers, delivery.**  Whenever the producer is between two messages: once its stores have reached the memory, the
consumer, running on its own from wherever it was interrupted, reads everything that has been sent, in order. -/
theorem tso_delivers_all_partial (junk : Nat → Byte) (numBytes : Nat) (h4 : 4 ≤ numBytes) (h32 : numBytes < 2 ^ 32) (sched : List TAct)
    (h : WordSized sched) (t : Tso) (hr : (initTso junk numBytes).run sched = .ok t) (hp : t.p = .idle) :
    ∃ t1 k t2, t.run (List.replicate t.pbuf.length .pflush) = .ok t1 ∧ t1.pbuf = [] ∧ t1.run (List.replicate k .cons) = .ok t2 ∧
      t2.got = t.sent := by
  obtain ⟨t', s, todo, lf, lr, lv, ht, R⟩ := tso_run (Rel.init junk numBytes h4 h32) sched h
  rw [hr] at ht
  cases ht
  obtain ⟨t1, s1, todo1, lf1, h1, R1, h2, h3, h5⟩ := tso_flush_run R _ rfl
  have hst := R1.stores
  rw [h2, h3, hp, pend_idle] at hst
  obtain ⟨e1, e2⟩ := List.append_eq_nil_iff.1 hst.symm
  have e3 : s1.p = .idle := by cases hq : s1.p <;> rw [hq] at e1 <;> simp [pend, tailStores] at e1
  have e4 : todo1 = [] := by
    cases hq : todo1 with
    | nil => rfl
    | cons j js => obtain ⟨m, _ | _⟩ := j <;> rw [hq] at e2 <;> simp [jobStores, tailStores] at e2
  have hs := R1.sent
  rw [h3, hp, e3, e4, h5] at hs
  simp only [cur_idle, List.append_nil, List.map_nil] at hs
  obtain ⟨k, s2, h6, -, h7⟩ := drains R1.inv
  obtain ⟨t2, h8, h9⟩ := tso_cons_run R1 k h6
  exact ⟨t1, k, t2, h1, h2, h8, by rw [h9, h7, hs]⟩

theorem of_checkT {r : Except Fault Tso} {P : Tso → Bool} (h : (match r with | .ok s => P s | .error _ => false) = true) :
    ∃ s, r = .ok s ∧ P s = true := by
  cases r with
  | ok s => exact ⟨s, rfl, h⟩
  | error e => cases h

/-- a schedule on a 24 byte pipe: both threads run while their stores wait; the third message goes to the start of the buffer when the
store of `readHead` has arrived, and is read although its first stores reach the memory only later -/
def tsoSched : List TAct :=
  [.send [1, 2, 3, 4]] ++ List.replicate 7 .prod ++ [.cons] ++ [.send [5, 6, 7, 8]] ++ List.replicate 7 .prod ++ List.replicate 6 .pflush ++
  List.replicate 8 .cons ++ [.send [9, 9, 9, 9]] ++ List.replicate 6 .pflush ++ List.replicate 8 .cons ++ [.cflush, .cflush] ++
  [.send [9, 9, 9, 9]] ++ List.replicate 9 .prod

theorem tso_demo : (∃ t, (initTso (fun _ => 0xAB) 24).run tsoSched = .ok t ∧ t.got = [[1, 2, 3, 4], [5, 6, 7, 8]] ∧
    t.sent = [[1, 2, 3, 4], [5, 6, 7, 8], [9, 9, 9, 9]] ∧ t.p = .idle ∧ t.pbuf.length = 8) ∧ WordSized tsoSched := by
  constructor
  · obtain ⟨t, ht, hP⟩ := of_checkT (r := (initTso (fun _ => 0xAB) 24).run tsoSched)
      (P := fun t => decide (t.got = [[1, 2, 3, 4], [5, 6, 7, 8]] ∧ t.sent = [[1, 2, 3, 4], [5, 6, 7, 8], [9, 9, 9, 9]] ∧
        t.p = .idle ∧ t.pbuf.length = 8)) (by decide)
    exact ⟨t, ht, of_decide_eq_true hP⟩
  · intro m hm
    simp [tsoSched] at hm
    rcases hm with rfl | rfl | rfl <;> decide

/-- One step of a consumer on a machine that may make a load early (ARM: nothing in HvLightPipe.c:65-72, 120-123 keeps the loads of the payload
behind the load of the length): its payload bytes are those of an earlier memory. -/
def Tso.consEarly (old : Nat → Byte) (t : Tso) : Except Fault Tso :=
  match t.c with
  | .reading n k acc => if k < n then .ok { t with c := .reading n (k + 1) (acc ++ [old (t.rd + 4 + k)]) } else t.consStep
  | _ => t.consStep

/-- **C01 is false when loads are reordered** (F64): the consumer loads the payload while the memory is as `hLp_init` has left it, then the
length after the message has arrived: it reads a message that nobody has sent. -/
theorem early_loads_break : ∃ t t' : Tso, ∃ old, (initTso (fun _ => 0xAB) 24).run [] = .ok old ∧
    (initTso (fun _ => 0xAB) 24).run ([.send [1, 2, 3, 4]] ++ List.replicate 7 .prod ++ List.replicate 6 .pflush ++ [.cons, .cons]) = .ok t ∧
    (do let a ← t.consEarly old.mem; let a ← a.consEarly old.mem; let a ← a.consEarly old.mem; let a ← a.consEarly old.mem
        a.consEarly old.mem) = .ok t' ∧
    t'.sent = [[1, 2, 3, 4]] ∧ t'.got = [[0xAB, 0xAB, 0xAB, 0xAB]] := by
  obtain ⟨t, ht, hP⟩ := of_checkT
    (r := (initTso (fun _ => 0xAB) 24).run ([.send [1, 2, 3, 4]] ++ List.replicate 7 .prod ++ List.replicate 6 .pflush ++ [.cons, .cons]))
    (P := fun t => decide (t.c = .reading 4 0 [] ∧ t.rd = 0 ∧ t.sent = [[1, 2, 3, 4]] ∧ t.got = [])) (by decide)
  obtain ⟨h1, h2, h3, h4⟩ := of_decide_eq_true hP
  refine ⟨t, { t with c := .consume, got := [[0xAB, 0xAB, 0xAB, 0xAB]] }, initTso (fun _ => 0xAB) 24, rfl, ht, ?_, h3, rfl⟩
  have e : ∀ c g, ({ t with c := c, got := g } : Tso).rd = 0 := fun _ _ => h2
  obtain ⟨mem, len, wr, rem, p, pbuf, seen, cbuf, c, sent, got⟩ := t
  simp only at h1 h3 h4
  subst h1 h3 h4
  have h2 : cbuf.getLastD seen = 0 := h2
  simp [Tso.consEarly, Tso.consStep, Tso.rd, h2, initTso, write32, bind, Except.bind]

end Verif.LightPipe
