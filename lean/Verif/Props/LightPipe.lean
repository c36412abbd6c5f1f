import Verif.LightPipeProofs
/-!
# Properties C01, C02, C03: the light pipe

Observables of the model (`Verif.LightPipe.St`): `sent` is the list of payloads for which
`hLp_produce` has completed, `got` the list of payloads that the consumer has read after a non-zero
`hLp_hasData`.
-/
namespace Verif.LightPipe

/-- A schedule in which the producer only sends messages that are non-empty, a whole number of
32-bit words, and shorter than `2^32 - 8` bytes. -/
def Aligned (sched : List Act) : Prop :=
  ∀ m, Act.send m ∈ sched → 0 < m.length ∧ m.length % 4 = 0 ∧ m.length + 8 < 2^32

theorem run_inv {s : St} (hI : Inv s) (sched : List Act) (h : Aligned sched) :
    ∃ s', run s sched = .ok s' ∧ Inv s' := by
  induction sched generalizing s with
  | nil => exact ⟨s, rfl, hI⟩
  | cons a as ih =>
    have ⟨s1, h1, hI1⟩ : ∃ s1, step s a = .ok s1 ∧ Inv s1 := by
      cases a with
      | send m =>
        simp only [step]
        split
        · rename_i hp
          exact ⟨_, rfl, inv_send hI (h m (by simp)) hp⟩
        · exact ⟨_, rfl, hI⟩
      | prod => exact inv_prod hI
      | cons => exact inv_cons hI
    simp only [run, h1]
    exact ih hI1 (fun m hm => h m (by simp [hm]))

/-- **C02** No interleaving ever makes a thread touch memory outside the buffer (or violate one of
the pipe's assertions): every schedule runs to completion without a fault.
Partial: restricted to word-sized messages; `unaligned_loses_messages` below shows what happens
otherwise. -/
theorem pipe_memory_safe_partial (junk : Nat → Byte) (numBytes : Nat) (h4 : 4 ≤ numBytes)
    (h32 : numBytes < 2^32) (sched : List Act) (h : Aligned sched) :
    ∃ s, run (initSt junk numBytes) sched = .ok s :=
  let ⟨s, hs, _⟩ := run_inv (inv_init junk numBytes h4 h32) sched h
  ⟨s, hs⟩

/-- **C01 (safety)** In every reachable state, what the consumer has read is a prefix of what the
producer has sent: nothing is invented, duplicated, reordered or altered. -/
theorem pipe_fifo_partial (junk : Nat → Byte) (numBytes : Nat) (h4 : 4 ≤ numBytes)
    (h32 : numBytes < 2^32) (sched : List Act) (h : Aligned sched) (s : St)
    (hr : run (initSt junk numBytes) sched = .ok s) : s.got <+: s.sent := by
  obtain ⟨s', hs', wc, Q, -, -, -, -, -, -, hg⟩ :=
    run_inv (inv_init junk numBytes h4 h32) sched h
  rw [hr] at hs'; cases hs'
  exact ⟨_, hg.symm⟩

/-- One complete `hLp_hasData` call by the consumer, not interrupted by the producer: what it
returns (as a number of bytes). -/
def hasData (q : Pipe) : Nat :=
  let x := read32 q.mem q.rd
  if x = LOOP then read32 q.mem 0 else x

/-- **C01 (no loss)** Whenever the consumer is between two messages, `hLp_hasData` returns 0 exactly
if everything sent has been read, and otherwise the length of the oldest unread message. -/
theorem pipe_no_loss_partial (junk : Nat → Byte) (numBytes : Nat) (h4 : 4 ≤ numBytes)
    (h32 : numBytes < 2^32) (sched : List Act) (h : Aligned sched) (s : St)
    (hr : run (initSt junk numBytes) sched = .ok s) (hc : s.c = .idle) :
    (hasData s.q = 0 ∧ s.got = s.sent) ∨
    (∃ m rest, s.sent = s.got ++ m :: rest ∧ hasData s.q = m.length ∧ 0 < m.length) := by
  obtain ⟨s', hs', wc, Q, hL, -, -, -, -, -, hg⟩ :=
    run_inv (inv_init junk numBytes h4 h32) sched h
  rw [hr] at hs'; cases hs'
  rw [hc] at hg
  simp only [undelivered] at hg
  have hnl : ∀ m : Msg, MsgOk m → (m.length : Nat) ≠ LOOP := by
    intro m hm; have := hm.2.2; simp only [LOOP]; omega
  rcases hL.head with ⟨hQ, hx⟩ | ⟨hx, hlt, hL0⟩ | ⟨m, Q', hQ, hx, -, hm, -⟩
  · left
    subst hQ
    refine ⟨?_, by simpa using hg.symm⟩
    simp only [hasData, hx]; rw [if_neg (by decide)]; rfl
  · simp only [hasData, hx, if_true]
    rcases hL0.head with ⟨hQ, hx⟩ | ⟨_, hlt', _⟩ | ⟨m, Q', hQ, hx, -, hm, -⟩
    · subst hQ; exact .inl ⟨hx, by simpa using hg.symm⟩
    · omega
    · subst hQ; exact .inr ⟨m, Q', hg, hx, hm.1⟩
  · right
    subst hQ
    refine ⟨m, Q', hg, ?_, hm.1⟩
    simp only [hasData, hx, if_neg (hnl m hm)]

/-- `k` uninterrupted consumer steps -/
def consSteps (k : Nat) : List Act := List.replicate k .cons

/-- size of the work left for the consumer -/
def work : List Msg → Nat
  | [] => 0
  | m :: ms => m.length + 10 + work ms

def rank : CPc → Nat
  | .idle => 9
  | .sawLoop => 8
  | .reread => 7
  | .gotData => 6
  | .reading n k _ => 5 + (n - k) - n
  | .consume => 10

theorem work_append (a b : List Msg) : work (a ++ b) = work a + work b := by
  induction a with
  | nil => simp [work]
  | cons x xs ih => simp [work, ih]; omega

/-- termination measure: unread messages, minus the bytes of the current one already read -/
def measureOf (s : St) : Nat :=
  let U := work (s.sent.drop s.got.length)
  match s.c with
  | .idle => U + 9
  | .sawLoop => U + 8
  | .reread => U + 7
  | .gotData => U + 6
  | .reading _ k _ => U + 5 - k
  | .consume => U + 10

theorem cons_progress {s : St} (hI : Inv s) (hne : s.got ≠ s.sent) :
    ∃ s', consStep s = .ok s' ∧ Inv s' ∧ s'.sent = s.sent ∧ measureOf s' < measureOf s := by
  obtain ⟨s', hs', hI'⟩ := inv_cons hI
  refine ⟨s', hs', hI', ?_⟩
  obtain ⟨wc, Q, hL, hlen, hrd, hwc, hP, hC, hs⟩ := hI
  have hrl := hL.rd_le
  have hdrop : s.sent.drop s.got.length = undelivered Q s.c := by rw [hs]; simp
  unfold consStep at hs'
  cases hc : s.c with
  | idle =>
    rw [hc] at hs'
    simp only [ld32_ok hrl, bind, Except.bind] at hs'
    split at hs'
    · cases hs'; refine ⟨rfl, ?_⟩; simp [measureOf, hc]
    · split at hs'
      · rename_i h1 h2
        exfalso
        rcases hL.head with h | ⟨h, _⟩ | ⟨m, Q', _, h, _, hm, _⟩
        · rw [hc, h.1] at hs; exact hne (by simpa [undelivered] using hs.symm)
        · exact h1 h
        · rw [h2] at h; have := hm.1; simp only [STOP] at h; omega
      · cases hs'; refine ⟨rfl, ?_⟩; simp [measureOf, hc]
  | sawLoop =>
    rw [hc] at hs'; simp only at hs'; cases hs'; refine ⟨rfl, ?_⟩; simp [measureOf, hc]
  | reread =>
    rw [hc] at hs' hC
    have hC : s.q.rd = 0 := hC
    simp only [ld32_ok hrl, bind, Except.bind] at hs'
    split at hs'
    · rename_i h2
      exfalso
      rcases hL.head with h | ⟨_, h, _⟩ | ⟨m, Q', _, h, _, hm, _⟩
      · rw [hc, h.1] at hs; exact hne (by simpa [undelivered] using hs.symm)
      · omega
      · rw [h2] at h; have := hm.1; simp only [STOP] at h; omega
    · cases hs'; refine ⟨rfl, ?_⟩; simp [measureOf, hc]
  | gotData =>
    rw [hc] at hs'
    simp only [ld32_ok hrl, bind, Except.bind] at hs'
    cases hs'; refine ⟨rfl, ?_⟩; simp [measureOf, hc]
  | reading n k acc =>
    rw [hc] at hs' hC
    obtain ⟨m, Q', hQ, h', hn, hk, hacc⟩ := hC
    have hw : work (s.sent.drop s.got.length) = m.length + 10 + work Q' := by
      rw [hdrop, hc, hQ]; rfl
    simp only at hs'
    split at hs'
    · cases hld : ld8 s.q (s.q.rd + 4 + k) with
      | error e => rw [hld] at hs'; cases hs'
      | ok b =>
        rw [hld] at hs'; simp only [bind, Except.bind] at hs'; cases hs'
        refine ⟨rfl, ?_⟩
        simp only [measureOf, hc, hw]; omega
    · cases hs'
      refine ⟨rfl, ?_⟩
      have hd2 : (s.sent.drop (s.got ++ [acc]).length) = Q' := by
        rw [hs, hc]; simp [undelivered, hQ]
      simp only [measureOf, hc, hw, hd2]; omega
  | consume =>
    rw [hc] at hs'
    simp only [ld32_ok hrl, bind, Except.bind] at hs'
    split at hs'
    · cases hs'
    · cases hs'; refine ⟨rfl, ?_⟩; simp [measureOf, hc]

theorem drains {s : St} (hI : Inv s) :
    ∃ k s', run s (consSteps k) = .ok s' ∧ s'.sent = s.sent ∧ s'.got = s.sent := by
  by_cases hne : s.got = s.sent
  · exact ⟨0, s, rfl, rfl, hne⟩
  · obtain ⟨s1, h1, hI1, he, hlt⟩ := cons_progress hI hne
    obtain ⟨k, s2, h2, h3, h4⟩ := drains hI1
    refine ⟨k + 1, s2, ?_, by rw [h3, he], by rw [h4, he]⟩
    simp only [consSteps, List.replicate_succ, run, step, h1]
    exact h2
termination_by measureOf s

/-- **C01 (delivery)** From every reachable state, wherever both threads were interrupted, the
consumer running on its own reads everything that has been sent so far, in order. -/
theorem pipe_delivers_all_partial (junk : Nat → Byte) (numBytes : Nat) (h4 : 4 ≤ numBytes)
    (h32 : numBytes < 2^32) (sched : List Act) (h : Aligned sched) (s : St)
    (hr : run (initSt junk numBytes) sched = .ok s) :
    ∃ k s', run s (consSteps k) = .ok s' ∧ s'.got = s.sent := by
  obtain ⟨s', hs', hI⟩ := run_inv (inv_init junk numBytes h4 h32) sched h
  rw [hr] at hs'; cases hs'
  obtain ⟨k, s2, h1, _, h3⟩ := drains hI
  exact ⟨k, s2, h1, h3⟩

theorem of_check {r : Except Fault St} {P : St → Bool}
    (h : (match r with | .ok s => P s | .error _ => false) = true) :
    ∃ s, r = .ok s ∧ P s = true := by
  cases r with
  | ok s => exact ⟨s, rfl, h⟩
  | error e => cases h

theorem stuck {s : St} (h1 : s.c = .idle) (h2 : s.q.rd + 4 ≤ s.q.len)
    (h3 : read32 s.q.mem s.q.rd = 0) (k : Nat) : run s (consSteps k) = .ok s := by
  induction k with
  | zero => rfl
  | succ k ih =>
    have : step s .cons = .ok s := by
      simp only [step, consStep, h1, ld32_ok h2, h3, bind, Except.bind]
      rfl
    simp only [consSteps, List.replicate_succ, run, this]
    exact ih

/-- **C01 is false without the alignment hypothesis** (finding F1). With message sizes 13, 5, 2 and 4
on a 32 byte pipe, the stop marker that `hLp_produce` writes after the fourth message overwrites the
length word of the second, still unread one: four messages were sent without an error, only the first
has been read, and the consumer now sees an empty pipe, for ever. -/
def lossSched : List Act :=
  [.send (List.replicate 13 1)] ++ List.replicate 16 .prod ++
  [.send (List.replicate 5 2)] ++ List.replicate 8 .prod ++ List.replicate 17 .cons ++
  [.send (List.replicate 2 3)] ++ List.replicate 7 .prod ++
  [.send (List.replicate 4 4)] ++ List.replicate 7 .prod

theorem unaligned_loses_messages :
    ∃ s, run (initSt (fun _ => 0) 32) lossSched = .ok s ∧ s.c = .idle ∧ s.p = .idle ∧
      s.sent.length = 4 ∧ s.got.length = 1 ∧ hasData s.q = 0 ∧
      ∀ k, run s (consSteps k) = .ok s := by
  obtain ⟨s, hs, hP⟩ := of_check (r := run (initSt (fun _ => 0) 32) lossSched)
    (P := fun s => decide (s.c = .idle ∧ s.p = .idle ∧ s.sent.length = 4 ∧ s.got.length = 1 ∧
      hasData s.q = 0 ∧ s.q.rd + 4 ≤ s.q.len ∧ read32 s.q.mem s.q.rd = 0)) (by decide)
  obtain ⟨h1, h2, h3, h4, h5, h6, h7⟩ := of_decide_eq_true hP
  exact ⟨s, hs, h1, h2, h3, h4, h5, stuck h1 h6 h7⟩

/-- **C03** A drained pipe (producer and consumer idle, `hLp_hasData` finds the stop marker) accepts
every message that needs at most half of the pipe. Partial: the property claims this for every
message that fits; `drained_pipe_refuses` refutes that. -/
theorem drained_pipe_accepts_partial (junk : Nat → Byte) (numBytes : Nat) (h4 : 4 ≤ numBytes)
    (h32 : numBytes < 2^32) (sched : List Act) (h : Aligned sched) (s : St)
    (hr : run (initSt junk numBytes) sched = .ok s) (hp : s.p = .idle)
    (hstop : read32 s.q.mem s.q.rd = STOP) (n : Nat) (hn : 2 * (n + 8) ≤ s.q.len) :
    decision s.q.len s.q.wr s.q.rem s.q.rd n ≠ .full := by
  obtain ⟨s', hs', wc, Q, hL, hlen, -, -, hP, -, -⟩ :=
    run_inv (inv_init junk numBytes h4 h32) sched h
  rw [hr] at hs'; cases hs'
  rw [hp] at hP
  obtain ⟨hw, hrem⟩ := hP
  have hrw : s.q.rd = wc := by
    cases hL with
    | flat h1 h2 h3 =>
      cases Q with
      | nil => exact h1
      | cons m Q =>
        have e1 := h1.1; rw [hstop] at e1
        have := h1.2.2.1.1; simp only [STOP] at e1; omega
    | @wrap Q1 Q2 e h1 h2 h3 h4 h5 h6 =>
      cases Q1 with
      | nil => simp only [Chain] at h1; subst h1; rw [hstop] at h2; cases h2
      | cons m Q =>
        have e1 := h1.1; rw [hstop] at e1
        have := h1.2.2.1.1; simp only [STOP] at e1; omega
  have hwl := hL.wc_le
  unfold decision
  rw [Nat.mod_eq_of_lt (by omega : n + 8 < 2^32)]
  simp only
  split
  · rw [if_neg (by omega)]; simp
  · rw [if_pos (by omega), if_neg (by omega)]; simp

/-- **C03 is false in general** (finding F2): a 64 byte pipe through which a single 24 byte message
has passed is empty, but refuses a 40 byte message, although 40 + 8 ≤ 64; since the heads do not move
while the pipe is empty, retrying never helps. -/
theorem drained_pipe_refuses :
    ∃ s, run (initSt (fun _ => 0) 64)
        ([.send (List.replicate 24 7)] ++ List.replicate 27 .prod ++ List.replicate 28 .cons) = .ok s ∧
      s.p = .idle ∧ s.c = .idle ∧ s.got = s.sent ∧ s.sent.length = 1 ∧
      decision s.q.len s.q.wr s.q.rem s.q.rd 40 = .full ∧ 40 + 8 ≤ s.q.len ∧
      ∀ k, run s (consSteps k) = .ok s := by
  obtain ⟨s, hs, hP⟩ := of_check (r := run (initSt (fun _ => 0) 64)
        ([.send (List.replicate 24 7)] ++ List.replicate 27 .prod ++ List.replicate 28 .cons))
    (P := fun s => decide (s.c = .idle ∧ s.p = .idle ∧ s.got = s.sent ∧ s.sent.length = 1 ∧
      decision s.q.len s.q.wr s.q.rem s.q.rd 40 = .full ∧ 40 + 8 ≤ s.q.len ∧
      s.q.rd + 4 ≤ s.q.len ∧ read32 s.q.mem s.q.rd = 0)) (by decide)
  obtain ⟨h1, h2, h3, h4, h5, h6, h7, h8⟩ := of_decide_eq_true hP
  exact ⟨s, hs, h2, h1, h3, h4, h5, h6, stuck h1 h7 h8⟩

/-- Non-vacuity of the three theorems: a concrete schedule on a 24 byte pipe in which the producer
sends three messages, wrapping around the end of the buffer, interleaved with the consumer. -/
def demoSched : List Act :=
  [.send [1,2,3,4]] ++ List.replicate 7 .prod ++ [.send [5,6,7,8]] ++ List.replicate 3 .prod ++
  List.replicate 8 .cons ++ List.replicate 4 .prod ++ List.replicate 8 .cons ++
  [.send [9,9,9,9]] ++ List.replicate 9 .prod ++ List.replicate 10 .cons

theorem demo_runs : (∃ s, run (initSt (fun _ => 0xAB) 24) demoSched = .ok s ∧
      s.got = [[1,2,3,4],[5,6,7,8],[9,9,9,9]] ∧ s.sent = s.got ∧ s.c = .idle) ∧
      Aligned demoSched := by
  constructor
  · obtain ⟨s, hs, hP⟩ := of_check (r := run (initSt (fun _ => 0xAB) 24) demoSched)
      (P := fun s => decide (s.got = [[1,2,3,4],[5,6,7,8],[9,9,9,9]] ∧ s.sent = s.got ∧
        s.c = .idle)) (by decide)
    exact ⟨s, hs, of_decide_eq_true hP⟩
  · intro m hm
    simp [demoSched] at hm
    rcases hm with rfl | rfl | rfl <;> decide

end Verif.LightPipe
