import Verif.SchedulerProofs
import Mathlib.Tactic.Linarith
import Mathlib.Data.Rat.Floor
/-!
# Properties C08, C09, C10: scheduling in `process()`
-/
namespace Verif.Sched
open MQ (Item Q)

variable {σ : Type}

/-- the messages waiting in the queue -/
def pending (s : Sys σ) : List Item := (MQ.toList s.q).getD []

theorem SI.pending {s : Sys σ} {xs} (h : SI s xs) : pending s = xs := by
  obtain ⟨as, ps, r⟩ := h.rep
  simp [Sched.pending, r.toList]

/-! ## one call of `process` preserves the invariant -/

theorem blocks_si {H : Handler σ} (hH : WellBehaved H) {fuel N : Nat} (k : Nat) {e0 : Nat} {s : Sys σ}
    {xs : List Item} (h : SI s xs) :
    blocks H fuel N k e0 s = .error .diverge ∨
    ∃ e s' xs', blocks H fuel N k e0 s = .ok (e, s') ∧ SI s' xs' := by
  induction k generalizing e0 s xs with
  | zero => exact .inr ⟨e0, s, xs, rfl, h⟩
  | succ k ih =>
    unfold blocks
    simp only
    rcases dispatch_ok hH (e := add32 e0 N) fuel h with hd | ⟨s1, xs1, new1, g1, g2, -⟩
    · left; rw [hd]; rfl
    · rw [g1]
      exact ih g2

theorem process_si {H : Handler σ} (hH : WellBehaved H) (recv : Nat → List Nat) {fuel N : Nat} (n : BitVec 32)
    (during : List (Nat × Nat)) {s : Sys σ} {xs : List Item} (h : SI s xs) :
    process H recv fuel N n during s = .error .diverge ∨
    ∃ r s' xs', process H recv fuel N n during s = .ok (r, s') ∧ SI s' xs' := by
  unfold process
  obtain ⟨s1, xs1, e1, h1, -⟩ := drain_ok recv s.inq (s := { s with inq := [] }) (xs := xs)
    ⟨h.rep, h.lex, h.ids, h.perm⟩
  rw [e1]
  simp only [bind, Except.bind]
  have h2 : SI { s1 with inq := (bangHash, s1.clock) :: during } xs1 := ⟨h1.rep, h1.lex, h1.ids, h1.perm⟩
  rcases blocks_si hH (fuel := fuel) (N := N) (if (roundDown n N).toInt < 0 then 0 else (roundDown n N).toNat / N)
    (e0 := s1.clock) h2 with hd | ⟨e, s2, xs2, e2, h3⟩
  · left; rw [hd]
  · right
    rw [e2]
    exact ⟨_, _, xs2, rfl, ⟨h3.rep, h3.lex, h3.ids, h3.perm⟩⟩

theorem calls_si {H : Handler σ} (hH : WellBehaved H) (recv : Nat → List Nat) {fuel N : Nat} (cs : List Call)
    {s : Sys σ} {xs : List Item} (h : SI s xs) :
    calls H recv fuel N s cs ≠ .error .fault ∧
    ∀ rs s', calls H recv fuel N s cs = .ok (rs, s') → ∃ xs', SI s' xs' := by
  induction cs generalizing s xs with
  | nil =>
    refine ⟨by simp [calls], fun rs s' he => ?_⟩
    simp only [calls] at he
    cases he
    exact ⟨xs, h⟩
  | cons c cs ih =>
    unfold calls
    cases c with
    | send hh d sr =>
      simp only [call]
      cases ht : sendTimestamp s.clock d sr with
      | none => exact ⟨by simp [bind, Except.bind], by simp [bind, Except.bind]⟩
      | some ts =>
        have h1 : SI { s with inq := s.inq ++ [(hh, ts)] } xs := ⟨h.rep, h.lex, h.ids, h.perm⟩
        simp only [bind, Except.bind]
        obtain ⟨i1, i2⟩ := ih h1
        cases hc : calls H recv fuel N { s with inq := s.inq ++ [(hh, ts)] } cs with
        | error er =>
          rw [hc] at i1
          refine ⟨?_, by simp⟩
          simpa using i1
        | ok v =>
          refine ⟨by simp, fun rs s' he => ?_⟩
          simp only [Except.ok.injEq, Prod.mk.injEq] at he
          exact i2 v.1 s' (by rw [hc, ← he.2])
    | proc n during =>
      simp only [call]
      rcases process_si hH recv (fuel := fuel) (N := N) n during h with hd | ⟨r, s1, xs1, e1, h1⟩
      · rw [hd]
        exact ⟨by simp [bind, Except.bind], by simp [bind, Except.bind]⟩
      · rw [e1]
        simp only [bind, Except.bind]
        obtain ⟨i1, i2⟩ := ih h1
        cases hc : calls H recv fuel N s1 cs with
        | error er =>
          rw [hc] at i1
          refine ⟨?_, by simp⟩
          simpa using i1
        | ok v =>
          refine ⟨by simp, fun rs s' he => ?_⟩
          simp only [Except.ok.injEq, Prod.mk.injEq] at he
          exact i2 v.1 s' (by rw [hc, ← he.2])

/-! ## C08 -/

/-- **C08 (no fault)** With well-behaved handlers, no sequence of host calls makes the scheduler follow
a `NULL` pointer. -/
theorem scheduler_never_faults_partial {H : Handler σ} (hH : WellBehaved H) (recv : Nat → List Nat)
    (fuel N : Nat) (h : MQ.Heap) (st : σ) (cs : List Call) :
    calls H recv fuel N (initSys h st) cs ≠ .error .fault :=
  (calls_si hH recv cs (si_init h st)).1

/-- **C08 (exactly once)** After any sequence of host calls, every message that was ever scheduled
(they are numbered 0, 1, 2, …) is in exactly one of three places, exactly once: dispatched, cancelled,
or still pending. -/
theorem scheduler_exactly_once_partial {H : Handler σ} (hH : WellBehaved H) (recv : Nat → List Nat)
    (fuel N : Nat) (h : MQ.Heap) (st : σ) (cs : List Call) (rs : List Int) (s : Sys σ)
    (hr : calls H recv fuel N (initSys h st) cs = .ok (rs, s)) :
    s.added.map (·.id) = List.range s.nid ∧
    s.added.Perm (s.log.map (·.item) ++ s.cancelled ++ pending s) := by
  obtain ⟨xs, hs⟩ := (calls_si hH recv cs (si_init h st)).2 rs s hr
  exact ⟨hs.ids, by rw [hs.pending]; exact hs.perm⟩

/-- the part of `process` after draining the input queue -/
theorem process_ok {H : Handler σ} (hH : WellBehaved H) (recv : Nat → List Nat) {fuel j : Nat}
    (hj : j ≤ 31) (n : BitVec 32) (hn : n.toNat < 2^31) (during : List (Nat × Nat)) {s : Sys σ}
    {xs : List Item} (h : SI s xs) (hov : s.clock + n.toNat < 2^32) {r : Int} {s' : Sys σ}
    (hp : process H recv fuel (2^j) n during s = .ok (r, s')) :
    ∃ (xs' : List Item) (new : List Disp) (host dr : List Item), SI s' xs' ∧ s'.log = s.log ++ new ∧
      dr.Perm (xs ++ host) ∧ (∃ rest, s'.added = s.added ++ host ++ rest) ∧
      host.map (fun x => (x.ts, x.inlet, x.send)) =
        s.inq.flatMap (fun m => (recv m.1).map fun r => (m.2, 0, r)) ∧
      r = ((n.toNat - n.toNat % 2^j : Nat) : Int) ∧ s'.clock = s.clock + (n.toNat - n.toNat % 2^j) ∧
      s'.inq = (bangHash, s.clock) :: during ∧
      (2^j ≤ n.toNat → ∀ y ∈ xs', s'.clock ≤ y.ts) ∧
      (∀ d ∈ new, d.item.ts < d.blockEnd ∧ (∃ i, 1 ≤ i ∧ d.blockEnd = s.clock + i * 2^j) ∧ d.blockEnd ≤ s'.clock ∧
        (d.blockEnd ≤ d.item.ts + 2^j ∨ d.item.ts < s.clock ∧ d.blockEnd = s.clock + 2^j)) ∧
      (new.map (·.item)).Pairwise lex ∧
      (∀ lb, (∀ y ∈ dr, lb ≤ y.ts) → (∀ d ∈ new, lb ≤ d.item.ts) ∧ ∀ y ∈ xs', lb ≤ y.ts) := by
  unfold process at hp
  obtain ⟨s1, xs1, e1, h1, f1, f2, f3, f4, ys, f5, f6, f7⟩ :=
    drain_ok recv s.inq (s := { s with inq := [] }) (xs := xs) ⟨h.rep, h.lex, h.ids, h.perm⟩
  rw [e1] at hp
  simp only [bind, Except.bind] at hp
  have h2 : SI { s1 with inq := (bangHash, s1.clock) :: during } xs1 := ⟨h1.rep, h1.lex, h1.ids, h1.perm⟩
  have hN := roundDown_toNat n j (by omega)
  have hpos : 0 < 2^j := Nat.two_pow_pos j
  have hle : n.toNat - n.toNat % 2^j ≤ n.toNat := Nat.sub_le _ _
  have hint : (roundDown n (2^j)).toInt = ((n.toNat - n.toNat % 2^j : Nat) : Int) := by
    rw [BitVec.toInt_eq_toNat_of_lt (by omega), hN]
  have hnn : ¬ (roundDown n (2^j)).toInt < 0 := by rw [hint]; omega
  rw [if_neg hnn, hN] at hp
  have hk : (n.toNat - n.toNat % 2^j) / 2^j = n.toNat / 2^j := by
    have h3 := Nat.div_add_mod n.toNat (2^j)
    have : n.toNat - n.toNat % 2^j = 2^j * (n.toNat / 2^j) := by omega
    rw [this, Nat.mul_div_cancel_left _ hpos]
  have hkm : n.toNat / 2^j * 2^j = n.toNat - n.toNat % 2^j := by
    have h3 := Nat.div_add_mod n.toNat (2^j)
    rw [Nat.mul_comm]; omega
  rw [hk] at hp
  simp only at f1
  rcases blocks_ok hH (fuel := fuel) (N := 2^j) (n.toNat / 2^j) (e0 := s1.clock) h2 (by rw [hkm, f1]; omega) with
    hd | ⟨s2, xs2, new, k1, k2, k3, k4, k5, k6, k7, k8, k9, k11⟩
  · simp only [hd] at hp; cases hp
  · simp only [k1] at hp
    simp only [Except.ok.injEq, Prod.mk.injEq] at hp
    obtain ⟨hr, rfl⟩ := hp
    simp only at k3 k4 k5
    have hadd : ∃ rest, s2.added = s.added ++ ys ++ rest := by
      obtain ⟨rest, hrest⟩ := (blocks_later k1).1.added
      exact ⟨rest, by rw [← hrest]; simp only [f5]⟩
    refine ⟨xs2, new, ys, xs1, ⟨k2.rep, k2.lex, k2.ids, k2.perm⟩, by rw [k5, f3], f7, hadd, f6, ?_, ?_, ?_, ?_, ?_, k8, k11⟩
    · rw [← hr, hint]
    · simp only [f1]; rw [hkm]
    · simp only [k4, f1]
    · intro hge y hy
      have : 0 < n.toNat / 2^j := Nat.div_pos hge hpos
      have := k6 this y hy
      simpa using this
    · intro d hd
      obtain ⟨p1, ⟨i, hi1, hi2, hi3⟩, p3⟩ := k7 d hd
      refine ⟨p1, ⟨i, hi1, by rw [hi3, f1]⟩, ?_, by rw [f1] at p3; exact p3⟩
      rw [hi3]
      simp only
      have := Nat.mul_le_mul_right (2^j) hi2
      omega


/-- **C08 (order, block, nothing due left)** Let `s` be a state reached by any sequence of host calls,
and consider a call `process(n)` with SIMD width `N = 2^j` in which the 32-bit sample clock does not
overflow.  Then
* the messages dispatched by the call (`new`) are in time order, equal times in scheduling order;
* each is dispatched before the end of its block, and in the block that contains its time; only if
  its time was already over when the call started, it is dispatched in the first block;
* if at least one block was processed, no message that was due by the end of the call is left.
Partial: handlers must not schedule into the past (see `early_insert_loses_message`), and the clock
must not wrap (see `clock_wrap_strands_message`). -/
theorem process_dispatch_partial {H : Handler σ} (hH : WellBehaved H) (recv : Nat → List Nat)
    (fuel j : Nat) (hj : j ≤ 31) (h : MQ.Heap) (st : σ) (cs : List Call) (rs : List Int) (s : Sys σ)
    (hr : calls H recv fuel (2^j) (initSys h st) cs = .ok (rs, s))
    (n : BitVec 32) (hn : n.toNat < 2^31) (during : List (Nat × Nat)) (hov : s.clock + n.toNat < 2^32)
    (r : Int) (s' : Sys σ) (hp : process H recv fuel (2^j) n during s = .ok (r, s')) :
    ∃ new, s'.log = s.log ++ new ∧
      (new.map (·.item)).Pairwise (fun a b => a.ts < b.ts ∨ (a.ts = b.ts ∧ a.id < b.id)) ∧
      (∀ d ∈ new, d.item.ts < d.blockEnd ∧ s.clock < d.blockEnd ∧ d.blockEnd ≤ s'.clock ∧
        (d.blockEnd - s.clock) % 2^j = 0 ∧
        (d.blockEnd ≤ d.item.ts + 2^j ∨ d.item.ts < s.clock ∧ d.blockEnd = s.clock + 2^j)) ∧
      (2^j ≤ n.toNat → ∀ y ∈ pending s', s'.clock ≤ y.ts) := by
  obtain ⟨xs, hs⟩ := (calls_si hH recv cs (si_init h st)).2 rs s hr
  obtain ⟨xs', new, host, dr, h1, h2, -, -, -, h3, h4, h5, h6, h7, h8, h9⟩ :=
    process_ok hH recv hj n hn during hs hov hp
  refine ⟨new, h2, h8, fun d hd => ?_, ?_⟩
  · obtain ⟨p1, ⟨i, p2, p3⟩, p4, p5⟩ := h7 d hd
    have : 2^j ≤ i * 2^j := Nat.le_mul_of_pos_left _ p2
    have hpos := Nat.two_pow_pos j
    refine ⟨p1, by omega, p4, ?_, p5⟩
    rw [p3, Nat.add_sub_cancel_left, Nat.mul_mod_left]
  · rw [h1.pending]; exact h6

/-- **C08 (termination)** If handlers always schedule strictly later than the message they handle, the
dispatch loop of a block ends. -/
theorem dispatch_terminates_partial {H : Handler σ}
    (hH : ∀ st nid x, ActsOk (x.ts + 1) x (H st nid x).2) (recv : Nat → List Nat)
    (fuel N : Nat) (h : MQ.Heap) (st : σ) (cs : List Call) (rs : List Int) (s : Sys σ)
    (hr : calls H recv fuel N (initSys h st) cs = .ok (rs, s)) (e : Nat) :
    ∃ fuel' s', dispatch H e fuel' s = .ok s' := by
  have hW : WellBehaved H := by
    intro st nid x a ha
    have := hH st nid x a ha
    cases a with
    | sched ts i sd => simp only at this ⊢; omega
    | cancel m sd => exact this
  obtain ⟨xs, hs⟩ := (calls_si hW recv cs (si_init h st)).2 rs s hr
  clear hr
  have main : ∀ (D : Nat) (m : Nat) (s : Sys σ) (xs : List Item), SI s xs →
      (∀ y ∈ xs, e ≤ y.ts + D) → xs.countP (fun y => decide (y.ts + D < e + 1)) ≤ m →
      ∃ fuel' s', dispatch H e fuel' s = .ok s' := by
    intro D
    induction D with
    | zero =>
      intro m s xs hs hge _
      exact ⟨1, s, dispatch_done hs (fun y hy => hge y (List.mem_of_head? hy))⟩
    | succ D ihD =>
      intro m
      induction m with
      | zero =>
        intro s xs hs hge hc
        have hc' : ∀ y ∈ xs, ¬ (y.ts + (D + 1) < e + 1) := by
          have := List.countP_eq_zero.mp (Nat.le_zero.mp hc)
          intro y hy; simpa using this y hy
        refine ihD _ s xs hs (fun y hy => ?_) (Nat.le_refl _)
        have h1 := hge y hy
        have h2 := hc' y hy
        omega
      | succ m ihm =>
        intro s xs hs hge hc
        by_cases hx : ∀ y, xs.head? = some y → e ≤ y.ts
        · exact ⟨1, s, dispatch_done hs hx⟩
        · cases xs with
          | nil => simp at hx
          | cons x t =>
            have hx' : x.ts < e := by simp at hx; exact hx
            by_cases hlow : x.ts + (D + 1) < e + 1
            · -- the head is in the lowest time slot: dispatching it reduces their number
              obtain ⟨s1, t1, e1, h1, -, -, -, f4, f5, f6⟩ :=
                dispatch_step (H := H) (lo := x.ts + 1) (e := e) hs (by omega) (hH _ _ _) hx'
              have hxe : x.ts + 1 + D = e := by have := hge x (by simp); omega
              have hcnt : t1.countP (fun y => decide (y.ts + (D + 1) < e + 1)) ≤ m := by
                have hp1 : (fun y : Item => decide (y.ts + (D + 1) < e + 1)) =
                    (fun y : Item => decide (y.ts < x.ts + 1)) := by
                  funext y; rw [decide_eq_decide]; omega
                rw [hp1] at hc ⊢
                rw [List.countP_cons_of_pos (by simp)] at hc
                omega
              have hge1 : ∀ y ∈ t1, e ≤ y.ts + (D + 1) := by
                intro y hy
                rcases f5 y hy with h | h
                · exact hge y (by simp [h])
                · omega
              obtain ⟨fuel', s', hd⟩ := ihm s1 t1 h1 hge1 hcnt
              exact ⟨fuel' + 1, s', by rw [e1, hd]⟩
            · -- nothing in the lowest slot
              refine ihD _ s (x :: t) hs (fun y hy => ?_) (Nat.le_refl _)
              rcases List.mem_cons.mp hy with rfl | hy
              · omega
              · have := (List.pairwise_cons.mp hs.sorted).1 y hy; omega
  exact main e _ s xs hs (fun y _ => by omega) (Nat.le_refl _)


/-! ### counterexamples to the unrestricted C08 -/

def emptyHeap : MQ.Heap := fun _ => ⟨none, none, none⟩

/-- a handler that, the first time it is called, schedules a message one sample earlier -/
def earlyHandler : Handler Nat := fun st _ x =>
  if st = 0 then (1, [.sched (x.ts - 1) 0 77]) else (st + 1, [])

/-- **C08 is false for handlers that schedule before the message being handled (finding F4)**: the new
message becomes the head of the queue, so `mq_pop` removes *it* instead of the handled one.  The new
message (id 1) is never dispatched, and the old one (id 0) is dispatched twice. -/
theorem early_insert_loses_message :
    (match calls earlyHandler (fun _ => [5]) 10 1 (initSys emptyHeap 0)
        [.send 1 (3 : Rat) 1000, .proc 8 []] with
      | .ok (_, s) => s.log.map (fun d => d.item.id) == [0, 0] && s.added.map (·.id) == [0, 1]
          && pending s == []
      | .error _ => false) = true := by
  decide +kernel

/-- a patch whose handlers do nothing -/
def quiet : Handler Unit := fun _ _ _ => ((), [])

/-- **C08 is false when the 32-bit clock wraps**: with the clock at `2^32 - 4`, a message due at
`2^32 - 2`, i.e. inside the block that `process(4)` renders, is not dispatched by that call (nor by the
next 2^30 blocks). -/
theorem clock_wrap_strands_message :
    let s0 : Sys Unit := { initSys emptyHeap () with clock := 2^32 - 4, inq := [(1, 2^32 - 2)] }
    (match calls quiet (fun h => if h = 1 then [5] else []) 10 4 s0 [.proc 4 [], .proc 4 [], .proc 400 []] with
      | .ok (_, s) => s.log == [] && (pending s).map (·.ts) == [2^32 - 2] && s.clock == 404
      | .error _ => false) = true := by
  decide +kernel

/-! ### non-vacuity: a well-behaved patch with an echo at the same time and later -/

def echo : Handler Nat := fun st _ x =>
  if st < 1 then (st + 1, [.sched (x.ts + 5) 0 7, .sched x.ts 0 6]) else (st + 1, [])

example : WellBehaved echo := by
  intro st nid x a ha
  unfold echo at ha
  split at ha
  · simp at ha
    rcases ha with rfl | rfl <;> simp
  · simp at ha

example : (match calls echo (fun h => if h = 1 then [5] else []) 6 4 (initSys emptyHeap 0)
      [.send 1 2 1000, .proc 9 []] with
    | .ok (rs, s) => rs == [0, 8] && s.clock == 8 && s.log.map (fun d => (d.blockEnd, d.item.ts, d.item.send)) ==
        [(4, 2, 5), (4, 2, 6), (8, 7, 7)]
    | .error _ => false) = true := by
  decide +kernel

/-! ## C09: the clock -/

/-- **C09** `process(n)` with `n ≥ 0` returns `n` rounded down to a multiple of the SIMD width `2^j` and
advances the clock by exactly that amount (modulo 2^32), whatever the handlers do. -/
theorem process_clock (H : Handler σ) (recv : Nat → List Nat) (fuel j : Nat) (hj : j ≤ 31)
    (n : BitVec 32) (hn : n.toNat < 2^31) (during : List (Nat × Nat)) (s s' : Sys σ) (hc : s.clock < 2^32) (r : Int)
    (hp : process H recv fuel (2^j) n during s = .ok (r, s')) :
    r = ((n.toNat / 2^j * 2^j : Nat) : Int) ∧ (s'.clock : Int) = ((s.clock : Int) + r) % 2^32 := by
  unfold process at hp
  simp only [bind, Except.bind] at hp
  split at hp
  · cases hp
  · rename_i s1 h1
    split at hp
    · cases hp
    · rename_i v h2
      obtain ⟨e, s2⟩ := v
      simp only [Except.ok.injEq, Prod.mk.injEq] at hp
      obtain ⟨hr, rfl⟩ := hp
      have hcl := (drain_later h1).clock
      simp only at hcl
      have hN := roundDown_toNat n j (by omega)
      have hpos : 0 < 2^j := Nat.two_pow_pos j
      have hle : n.toNat - n.toNat % 2^j ≤ n.toNat := Nat.sub_le _ _
      have hint : (roundDown n (2^j)).toInt = ((n.toNat - n.toNat % 2^j : Nat) : Int) := by
        rw [BitVec.toInt_eq_toNat_of_lt (by omega), hN]
      have hnn : ¬ (roundDown n (2^j)).toInt < 0 := by rw [hint]; omega
      have hd := Nat.div_add_mod n.toNat (2^j)
      have hk : (n.toNat - n.toNat % 2^j) / 2^j = n.toNat / 2^j := by
        have : n.toNat - n.toNat % 2^j = 2^j * (n.toNat / 2^j) := by omega
        rw [this, Nat.mul_div_cancel_left _ hpos]
      have hkm : n.toNat / 2^j * 2^j = n.toNat - n.toNat % 2^j := by
        rw [Nat.mul_comm]; omega
      rw [if_neg hnn, hN, hk] at h2
      have he := (blocks_later h2).2 (by rw [hcl]; exact hc)
      rw [hint] at hr
      refine ⟨by rw [← hr, hkm], ?_⟩
      simp only
      rw [he, hcl, hkm, ← hr]
      push_cast
      rfl

/-- **C09** for control-only patches: `process(n)` returns `n` and advances the clock by `n`. -/
theorem processControl_clock (H : Handler σ) (recv : Nat → List Nat) (fuel : Nat)
    (n : BitVec 32) (hn : n.toNat < 2^31) (during : List (Nat × Nat)) (s s' : Sys σ) (r : Int)
    (hp : processControl H recv fuel n during s = .ok (r, s')) :
    r = (n.toNat : Int) ∧ (s'.clock : Int) = ((s.clock : Int) + r) % 2^32 := by
  unfold processControl at hp
  simp only [bind, Except.bind] at hp
  split at hp
  · cases hp
  · rename_i s1 h1
    split at hp
    · cases hp
    · rename_i s2 h2
      simp only [Except.ok.injEq, Prod.mk.injEq] at hp
      obtain ⟨hr, rfl⟩ := hp
      have hcl := (drain_later h1).clock
      simp only at hcl
      rw [BitVec.toInt_eq_toNat_of_lt (by omega)] at hr
      refine ⟨hr.symm, ?_⟩
      simp only [add32, hcl, ← hr]
      push_cast
      rfl

/-- all block sizes in the calls are non-negative -/
def NonNeg (cs : List Call) : Prop := ∀ c ∈ cs, match c with | .proc n _ => n.toNat < 2^31 | _ => True

/-- **C09** over any sequence of host calls: the clock is the total number of frames that the `process`
calls returned, modulo 2^32 (`send` calls count as returning 0). -/
theorem clock_is_total_frames (H : Handler σ) (recv : Nat → List Nat) (fuel j : Nat) (hj : j ≤ 31)
    (cs : List Call) (hcs : NonNeg cs) (s s' : Sys σ) (hc : s.clock < 2^32) (rs : List Int)
    (hr : calls H recv fuel (2^j) s cs = .ok (rs, s')) :
    (s'.clock : Int) = ((s.clock : Int) + rs.sum) % 2^32 ∧ s'.clock < 2^32 := by
  induction cs generalizing s rs with
  | nil =>
    cases hr
    refine ⟨?_, hc⟩
    simp only [List.sum_nil, Int.add_zero]
    rw [Int.emod_eq_of_lt] <;> omega
  | cons c cs ih =>
    unfold calls at hr
    simp only [bind, Except.bind] at hr
    split at hr
    · cases hr
    · rename_i v h1
      obtain ⟨r, s1⟩ := v
      split at hr
      · cases hr
      · rename_i w h2
        obtain ⟨rs', s2⟩ := w
        simp only [Except.ok.injEq, Prod.mk.injEq] at hr
        obtain ⟨rfl, rfl⟩ := hr
        have key : (s1.clock : Int) = ((s.clock : Int) + r) % 2^32 := by
          cases c with
          | send hh d sr =>
            simp only [call] at h1
            split at h1
            · cases h1
            · cases h1
              simp only [Int.add_zero]
              rw [Int.emod_eq_of_lt] <;> omega
          | proc n during =>
            exact (process_clock H recv fuel j hj n (hcs (.proc n during) (by simp)) during s s1 hc r h1).2
        have hc1 : s1.clock < 2^32 := by
          have : ((s.clock : Int) + r) % 2^32 < 2^32 := Int.emod_lt_of_pos _ (by norm_num)
          omega
        obtain ⟨k1, k2⟩ := ih (fun c hc => hcs c (by simp [hc])) s1 hc1 rs' h2
        refine ⟨?_, k2⟩
        rw [k1, key, List.sum_cons, Int.emod_add_emod]
        congr 1
        omega

/-! ## C10: delayed host messages -/

/-- the due time that `sendMessageToReceiver` is documented to use -/
def DueTime (clock : Nat) (delayMs sampleRate : Rat) (T : Nat) : Prop :=
  ∃ k : Nat, T = clock + k ∧ (k : Rat) ≤ max 0 delayMs * sampleRate / 1000 ∧
    max 0 delayMs * sampleRate / 1000 < k + 1

/-- **C10 (time)** the timestamp is the current time plus the delay in whole samples, if that does not
overflow -/
theorem sendTimestamp_spec (clock : Nat) (d sr : Rat) (hsr : 0 ≤ sr) (T : Nat) (hT : DueTime clock d sr T)
    (hlt : T < 2^32) : sendTimestamp clock d sr = some T := by
  obtain ⟨k, rfl, h1, h2⟩ := hT
  unfold sendTimestamp
  have hf : (max 0 d * (sr / 1000)).floor = (k : Int) := by
    apply le_antisymm
    · have : (max 0 d * (sr / 1000)).floor < ((k : Int) + 1) := by
        rw [Rat.floor_lt_iff]; push_cast; linarith
      omega
    · rw [Rat.le_floor_iff]; push_cast; linarith
  simp only [hf]
  rw [if_neg (by omega)]
  simp only [Int.toNat_natCast, add32]
  rw [Nat.mod_eq_of_lt (by omega)]

/-- the fate of message `x` in state `s` (SIMD width `N`): cancelled, still pending and not yet due, or
dispatched in the block that contains its time -/
def Fate (N : Nat) (s : Sys σ) (x : Item) : Prop :=
  x ∈ s.cancelled ∨ (x ∈ pending s ∧ s.clock ≤ x.ts) ∨
  ∃ d ∈ s.log, d.item = x ∧ x.ts < d.blockEnd ∧ d.blockEnd ≤ x.ts + N

theorem process_later {H : Handler σ} {recv : Nat → List Nat} {fuel N : Nat} {n : BitVec 32}
    {during : List (Nat × Nat)} {s s' : Sys σ} {r : Int}
    (hp : process H recv fuel N n during s = .ok (r, s')) :
    s.added <+: s'.added ∧ s.cancelled <+: s'.cancelled ∧ s.log <+: s'.log := by
  unfold process at hp
  simp only [bind, Except.bind] at hp
  split at hp
  · cases hp
  · rename_i s1 h1
    split at hp
    · cases hp
    · rename_i v h2
      obtain ⟨e, s2⟩ := v
      simp only [Except.ok.injEq, Prod.mk.injEq] at hp
      obtain ⟨_, rfl⟩ := hp
      have a := drain_later h1
      have b := (blocks_later h2).1
      exact ⟨a.added.trans b.added, a.cancelled.trans b.cancelled, a.log.trans b.log⟩

/-- in one call of `process`, every message that was pending and not overdue, or is drained from the
input queue and not overdue, meets its fate -/
theorem process_fate {H : Handler σ} (hH : WellBehaved H) (recv : Nat → List Nat) {fuel j : Nat}
    (hj : j ≤ 31) (n : BitVec 32) (hn : n.toNat < 2^31) (during : List (Nat × Nat)) {s : Sys σ}
    {xs : List Item} (h : SI s xs) (hov : s.clock + n.toNat < 2^32) {r : Int} {s' : Sys σ}
    (hp : process H recv fuel (2^j) n during s = .ok (r, s')) (x : Item) (hx : x ∈ s'.added)
    (hxl : x ∉ s.log.map (·.item)) (hxts : s.clock ≤ x.ts) : Fate (2^j) s' x := by
  obtain ⟨xs', new, host, dr, h1, h2, -, -, -, h3, h4, h5, h6, h7, h8, h9⟩ :=
    process_ok hH recv hj n hn during h hov hp
  have hm := h1.perm.mem_iff.mp hx
  rw [h2] at hm
  simp only [List.map_append, List.mem_append] at hm
  rcases hm with ((hm | hm) | hm) | hm
  · exact absurd hm hxl
  · obtain ⟨d, hd, rfl⟩ := List.mem_map.mp hm
    obtain ⟨p1, -, p4, p5⟩ := h7 d hd
    refine .inr (.inr ⟨d, by rw [h2]; simp [hd], rfl, p1, ?_⟩)
    omega
  · exact .inl hm
  · refine .inr (.inl ⟨by rw [h1.pending]; exact hm, ?_⟩)
    by_cases hge : 2^j ≤ n.toNat
    · exact h6 hge x hm
    · rw [h4, Nat.mod_eq_of_lt (by omega)]; omega

theorem Fate.process {H : Handler σ} (hH : WellBehaved H) (recv : Nat → List Nat) {fuel j : Nat}
    (hj : j ≤ 31) (n : BitVec 32) (hn : n.toNat < 2^31) (during : List (Nat × Nat)) {s : Sys σ}
    {xs : List Item} (h : SI s xs) (hov : s.clock + n.toNat < 2^32) {r : Int} {s' : Sys σ}
    (hp : process H recv fuel (2^j) n during s = .ok (r, s')) (x : Item) (hf : Fate (2^j) s x) :
    Fate (2^j) s' x := by
  obtain ⟨l1, l2, l3⟩ := process_later hp
  rcases hf with hf | ⟨hf, hts⟩ | ⟨d, hd, hf⟩
  · exact .inl (l2.subset hf)
  · refine process_fate hH recv hj n hn during h hov hp x (l1.subset ?_) ?_ hts
    · rw [h.pending] at hf
      exact h.perm.mem_iff.mpr (by simp [hf])
    · rw [h.pending] at hf
      intro hl
      have hnd : (s.added.map (·.id)).Nodup := by rw [h.ids]; exact List.nodup_range
      have := (h.perm.map (·.id)).nodup_iff.mp hnd
      rw [List.map_append, List.map_append] at this
      have hdis := (List.nodup_append.mp this).2.2
      exact hdis x.id (by
        rw [List.mem_append]; left
        obtain ⟨d, hd, he⟩ := List.mem_map.mp hl
        exact List.mem_map.mpr ⟨x, List.mem_map.mpr ⟨d, hd, he⟩, rfl⟩) x.id (List.mem_map_of_mem hf) rfl
  · exact .inr (.inr ⟨d, l3.subset hd, hf⟩)

/-- total size of the blocks requested in a sequence of calls -/
def totalN : List Call → Nat
  | [] => 0
  | .send .. :: cs => totalN cs
  | .proc n _ :: cs => n.toNat + totalN cs

theorem Fate.calls {H : Handler σ} (hH : WellBehaved H) (recv : Nat → List Nat) {fuel j : Nat} (hj : j ≤ 31)
    (cs : List Call) (hcs : NonNeg cs) {s : Sys σ} {xs : List Item} (h : SI s xs)
    (hov : s.clock + totalN cs < 2^32) {rs : List Int} {s' : Sys σ}
    (hr : calls H recv fuel (2^j) s cs = .ok (rs, s')) (x : Item) (hf : Fate (2^j) s x) : Fate (2^j) s' x := by
  induction cs generalizing s xs rs with
  | nil => cases hr; exact hf
  | cons c cs ih =>
    unfold Sched.calls at hr
    simp only [bind, Except.bind] at hr
    split at hr
    · cases hr
    · rename_i v h1
      obtain ⟨r, s1⟩ := v
      split at hr
      · cases hr
      · rename_i w h2
        obtain ⟨rs', s2⟩ := w
        simp only [Except.ok.injEq, Prod.mk.injEq] at hr
        obtain ⟨rfl, rfl⟩ := hr
        have hcs' : NonNeg cs := fun c hc => hcs c (by simp [hc])
        cases c with
        | send hh d sr =>
          simp only [call] at h1
          split at h1
          · cases h1
          · cases h1
            rename_i ts _
            exact ih hcs' (s := { s with inq := s.inq ++ [(hh, ts)] }) ⟨h.rep, h.lex, h.ids, h.perm⟩ hov h2 hf
        | proc n during =>
          simp only [totalN] at hov
          have hn : n.toNat < 2^31 := hcs (.proc n during) (by simp)
          have hov1 : s.clock + n.toNat < 2^32 := by omega
          obtain ⟨xs', new, host, dr, g1, -, -, -, -, -, g4, -⟩ := process_ok hH recv hj n hn during h hov1 h1
          refine ih hcs' g1 ?_ h2 (hf.process hH recv hj n hn during h hov1 h1 x)
          have := Nat.sub_le n.toNat (n.toNat % 2^j)
          omega

/-- **C10** Let `s` be a state reached by any host calls.  The host sends a message with delay `d`, whose
due time is `T`, and then makes any further calls, the first of them a `process` call.  Then for every
receiver `r` of that name a message with time `T` was scheduled, and in the final state it is either
cancelled by the patch, or it is still pending and its time has not come, or it was dispatched in the
block of `N = 2^j` samples that contains `T`.
(It is dispatched only once by `scheduler_exactly_once_partial`.)
Partial: well-behaved handlers; the 32-bit clock does not overflow during the calls; exact arithmetic
instead of `double`. -/
theorem host_message_block_partial {H : Handler σ} (hH : WellBehaved H) (recv : Nat → List Nat)
    (fuel j : Nat) (hj : j ≤ 31) (h : MQ.Heap) (st : σ) (cs : List Call) (rs : List Int) (s : Sys σ)
    (hr : calls H recv fuel (2^j) (initSys h st) cs = .ok (rs, s))
    (hash : Nat) (d sr : Rat) (hsr : 0 ≤ sr) (T : Nat) (hT : DueTime s.clock d sr T) (hT32 : T < 2^32)
    (n : BitVec 32) (during : List (Nat × Nat)) (cs' : List Call) (hcs : NonNeg (.proc n during :: cs'))
    (hov : s.clock + totalN (.proc n during :: cs') < 2^32)
    (rs' : List Int) (s' : Sys σ)
    (hr' : calls H recv fuel (2^j) s (.send hash d sr :: .proc n during :: cs') = .ok (rs', s'))
    (r : Nat) (hrecv : r ∈ recv hash) :
    ∃ x ∈ s'.added, x ∉ s.added ∧ x.ts = T ∧ x.send = r ∧ Fate (2^j) s' x := by
  obtain ⟨xs, hs⟩ := (calls_si hH recv cs (si_init h st)).2 rs s hr
  rw [calls] at hr'
  simp only [call, sendTimestamp_spec s.clock d sr hsr T hT hT32, bind, Except.bind] at hr'
  rw [calls] at hr'
  simp only [call, bind, Except.bind] at hr'
  have h0 : SI { s with inq := s.inq ++ [(hash, T)] } xs := ⟨hs.rep, hs.lex, hs.ids, hs.perm⟩
  split at hr'
  · cases hr'
  · rename_i v hv
    split at hv
    · cases hv
    · rename_i w h1
      obtain ⟨r1, s1⟩ := w
      split at hv
      · cases hv
      · rename_i w2 h2
        obtain ⟨rs2, s2⟩ := w2
        simp only [Except.ok.injEq] at hv hr'
        subst hv
        simp only [Prod.mk.injEq] at hr'
        obtain ⟨_, rfl⟩ := hr'
        simp only [totalN] at hov
        have hn : n.toNat < 2^31 := hcs (.proc n during) (by simp)
        have hov1 : s.clock + n.toNat < 2^32 := by omega
        obtain ⟨xs', new, host, dr, g1, g2, g3, ⟨rest, g3'⟩, g3'', g4, g5, -⟩ :=
          process_ok hH recv hj n hn during h0 hov1 h1
        simp only at g3' g5 g3''
        have hx : (T, 0, r) ∈ host.map (fun x => (x.ts, x.inlet, x.send)) := by
          rw [g3'', List.mem_flatMap]
          exact ⟨(hash, T), by simp, List.mem_map.mpr ⟨r, hrecv, rfl⟩⟩
        obtain ⟨x, hxh, hxe⟩ := List.mem_map.mp hx
        simp only [Prod.mk.injEq] at hxe
        have hxa : x ∈ s1.added := by rw [g3']; simp [hxh]
        have hTc : s.clock ≤ T := by obtain ⟨k, hk, -⟩ := hT; omega
        have hnew : x ∉ s.added := by
          have hnd : (s1.added.map (·.id)).Nodup := by rw [g1.ids]; exact List.nodup_range
          rw [g3', List.append_assoc, List.map_append] at hnd
          have hdis := (List.nodup_append.mp hnd).2.2
          intro hin
          exact hdis x.id (List.mem_map_of_mem hin) x.id
            (List.mem_map_of_mem (List.mem_append.mpr (.inl hxh))) rfl
        have hlog : x ∉ s.log.map (·.item) := fun hin =>
          hnew (hs.perm.mem_iff.mpr (by simp only [List.mem_append]; exact .inl (.inl hin)))
        have hf1 : Fate (2^j) s1 x :=
          process_fate hH recv hj n hn during h0 hov1 h1 x hxa hlog (by rw [hxe.1]; exact hTc)
        have hov2 : s1.clock + totalN cs' < 2^32 := by
          have := Nat.sub_le n.toNat (n.toNat % 2^j)
          rw [g5]; omega
        have hcs'' : NonNeg cs' := fun c hc => hcs c (by simp [hc])
        have hf2 := Fate.calls hH recv hj cs' hcs'' g1 hov2 h2 x hf1
        refine ⟨x, ?_, hnew, hxe.1, hxe.2.2, hf2⟩
        obtain ⟨xs2, hsi2⟩ := (calls_si hH recv cs' g1).2 rs2 s2 h2
        rcases hf2 with hf | ⟨hf, -⟩ | ⟨dd, hdd, he, -⟩
        · exact hsi2.perm.mem_iff.mpr (by simp [hf])
        · rw [hsi2.pending] at hf; exact hsi2.perm.mem_iff.mpr (by simp [hf])
        · refine hsi2.perm.mem_iff.mpr ?_
          simp only [List.mem_append]
          exact .inl (.inl (List.mem_map.mpr ⟨dd, hdd, he⟩))

/-- non-vacuity of the due time: 10.5 ms at 44.1 kHz is 463 samples -/
example : DueTime 100 (21/2) 44100 563 := ⟨463, rfl, by norm_num, by norm_num⟩

end Verif.Sched
