import Verif.MessagePoolProofs
/-!
# Properties C11, C12: the message pool
-/
namespace Verif.Pool
open Mem Msg

/-- States reachable by any history of `mp_addMessage` and `mp_freeMessage` on a pool of `kb` kilobytes at
address `base`, together with the messages that are live (added and not yet freed).  Between the calls the rest of
the program may change all memory outside the pool buffer. -/
inductive Reach (win : Bool) (fuel base kb : Nat) : Mem → Pool → List Live → Prop
  | init (M : Mem) : Reach win fuel base kb M (init base kb) []
  | env {M M' : Mem} {P : Pool} {L : List Live} : Reach win fuel base kb M P L →
      (∀ x, base ≤ x → x < base + kb * 1024 → M' x = M x) → Reach win fuel base kb M' P L
  | add {M M' : Mem} {P P' : Pool} {L : List Live} {m t buf : Nat} {vs : List Val} : Reach win fuel base kb M P L →
      SrcOk win fuel M P L m t vs → addMessage win fuel M P m = .ok (M', P', buf) →
      Reach win fuel base kb M' P' (⟨buf, t, vs⟩ :: L)
  | free {M M' : Mem} {P P' : Pool} {L₁ L₂ : List Live} {l : Live} : Reach win fuel base kb M P (L₁ ++ l :: L₂) →
      freeMessage win M P l.a = .ok (M', P') → Reach win fuel base kb M' P' (L₁ ++ L₂)

theorem reach_inv {win : Bool} {fuel base kb : Nat} (h64 : base + kb * 1024 ≤ 2^64) {M : Mem} {P : Pool} {L : List Live}
    (h : Reach win fuel base kb M P L) : PInv win M P L ∧ P.buffer = base ∧ P.bufferSize = kb * 1024 := by
  induction h with
  | init M => exact ⟨pinv_init win M base kb, rfl, rfl⟩
  | @env M M' P L _ hM ih =>
    obtain ⟨h1, h2, h3⟩ := ih
    refine ⟨⟨h1.idx, h1.inside, h1.disj, fun l hl => (h1.live l hl).frame fun x g1 g2 => hM x ?_ ?_⟩, h2, h3⟩
    · have := h1.inside (liveReg win l) (by unfold regs; rw [List.mem_append]; exact .inl (List.mem_map_of_mem hl))
      simp only [liveReg] at *
      omega
    · have := h1.inside (liveReg win l) (by unfold regs; rw [List.mem_append]; exact .inl (List.mem_map_of_mem hl))
      have := h1.idx
      simp only [liveReg] at *
      omega
  | @add M M' P P' L m t buf vs _ hs ha ih =>
    obtain ⟨h1, h2, h3⟩ := ih
    rcases addMessage_spec h1 hs (by omega) with ⟨-, M1, P1, b1, e1, e2, e3, e4, -⟩ | ⟨-, e1⟩
    · rw [ha] at e1
      cases e1
      exact ⟨e2, by omega, by omega⟩
    · rw [ha] at e1; cases e1
  | @free M M' P P' L₁ L₂ l _ hf ih =>
    obtain ⟨h1, h2, h3⟩ := ih
    obtain ⟨M1, e1, e2, -⟩ := freeMessage_spec h1
    rw [hf] at e1
    cases e1
    exact ⟨e2, h2, h3⟩

/-- **C11** In every reachable state: every live message is still exactly the message that was added (same
timestamp, same elements, text inside its own bytes), it lies inside the pool buffer, and the bytes of different
live messages do not overlap. -/
theorem pool_live_messages_intact (win : Bool) (fuel base kb : Nat) (h64 : base + kb * 1024 ≤ 2^64) (M : Mem) (P : Pool)
    (L : List Live) (h : Reach win fuel base kb M P L) :
    (∀ l ∈ L, IsMsg M l.a l.t l.vs ∧ SelfContained M l.a (needed l.vs) l.vs ∧ getSize M l.a = needed l.vs ∧
      base ≤ l.a ∧ l.a + needed l.vs ≤ base + kb * 1024) ∧
    L.Pairwise (fun l k => l.a + needed l.vs ≤ k.a ∨ k.a + needed k.vs ≤ l.a) := by
  obtain ⟨hI, hb, hs⟩ := reach_inv h64 h
  have hfit : ∀ l ∈ L, needed l.vs ≤ (liveReg win l).2 := fun l hl => by
    have := needed_ge (hI.live l hl).pos
    exact cls_fit win (needed l.vs) (by omega)
  refine ⟨fun l hl => ?_, ?_⟩
  · have h1 := hI.live l hl
    have h2 := hI.inside (liveReg win l) (by unfold regs; rw [List.mem_append]; exact .inl (List.mem_map_of_mem hl))
    have h3 := hfit l hl
    have h4 := hI.idx
    simp only [liveReg] at *
    exact ⟨h1.msg, h1.self, h1.size, by omega, by omega⟩
  · have hp := hI.disj
    unfold regs at hp
    rw [List.pairwise_append] at hp
    have hp := hp.1
    rw [List.pairwise_map] at hp
    refine hp.imp_of_mem fun {a b} ha hb hd => ?_
    have h1 := hfit a ha
    have h2 := hfit b hb
    unfold Dj at hd
    simp only [liveReg] at *
    omega

/-- **C11** `mp_freeMessage` of a live message never leaves the list array, and no pool operation changes a byte
outside the pool buffer. -/
theorem pool_writes_inside (win : Bool) (fuel base kb : Nat) (h64 : base + kb * 1024 ≤ 2^64) (M : Mem) (P : Pool)
    (L : List Live) (h : Reach win fuel base kb M P L) :
    (∀ l ∈ L, ∃ M' P', freeMessage win M P l.a = .ok (M', P') ∧
      ∀ x, x < base ∨ base + kb * 1024 ≤ x → M' x = M x) ∧
    (∀ m t vs, SrcOk win fuel M P L m t vs → addMessage win fuel M P m = .error .assertFail ∨
      ∃ M' P' a, addMessage win fuel M P m = .ok (M', P', a) ∧ ∀ x, x < base ∨ base + kb * 1024 ≤ x → M' x = M x) := by
  obtain ⟨hI, hb, hs⟩ := reach_inv h64 h
  refine ⟨fun l hl => ?_, fun m t vs hsrc => ?_⟩
  · obtain ⟨L₁, L₂, rfl⟩ := List.append_of_mem hl
    obtain ⟨M', e1, -, e3⟩ := freeMessage_spec hI
    exact ⟨M', _, e1, by rw [← hb, ← hs]; exact e3⟩
  · rcases addMessage_spec hI hsrc (by omega) with ⟨-, M1, P1, b1, e1, -, -, -, -, -, -, e8⟩ | ⟨-, e1⟩
    · exact .inr ⟨M1, P1, b1, e1, by rw [← hb, ← hs]; exact e8⟩
    · exact .inl e1

/-! ## C12 -/

/-- how many live messages need a chunk of class `i` -/
def count (win : Bool) (i : Nat) (L : List Live) : Nat := L.countP fun l => cls win (needed l.vs) = i

/-- chunks of class `i` per block: 16, 8, 4, 2 -/
def per (i : Nat) : Nat := 512 / (32 <<< i)

/-- Histories in which every message declares a size of the same class as it needs, and in which at any time at
most `B i` messages of class `i` are live. -/
inductive ReachB (win : Bool) (fuel base kb : Nat) (B : Nat → Nat) : Mem → Pool → List Live → Prop
  | init (M : Mem) : ReachB win fuel base kb B M (init base kb) []
  | env {M M' : Mem} {P : Pool} {L : List Live} : ReachB win fuel base kb B M P L →
      (∀ x, base ≤ x → x < base + kb * 1024 → M' x = M x) → ReachB win fuel base kb B M' P L
  | add {M M' : Mem} {P P' : Pool} {L : List Live} {m t buf : Nat} {vs : List Val} : ReachB win fuel base kb B M P L →
      SrcOk win fuel M P L m t vs → cls win (getSize M m) = cls win (needed vs) →
      count win (cls win (needed vs)) L < B (cls win (needed vs)) →
      addMessage win fuel M P m = .ok (M', P', buf) →
      ReachB win fuel base kb B M' P' (⟨buf, t, vs⟩ :: L)
  | free {M M' : Mem} {P P' : Pool} {L₁ L₂ : List Live} {l : Live} : ReachB win fuel base kb B M P (L₁ ++ l :: L₂) →
      freeMessage win M P l.a = .ok (M', P') → ReachB win fuel base kb B M' P' (L₁ ++ L₂)

theorem ReachB.reach {win : Bool} {fuel base kb : Nat} {B : Nat → Nat} {M : Mem} {P : Pool} {L : List Live}
    (h : ReachB win fuel base kb B M P L) : Reach win fuel base kb M P L := by
  induction h with
  | init M => exact .init M
  | env _ hM ih => exact .env ih hM
  | add _ hs _ _ ha ih => exact .add ih hs ha
  | free _ hf ih => exact .free ih hf

/-- blocks needed for `n` chunks of class `i` -/
def blocksFor (i n : Nat) : Nat := (n + per i - 1) / per i

/-- capacity needed for at most `B i` live messages of each class -/
def capacity (B : Nat → Nat) : Nat :=
  512 * (blocksFor 0 (B 0) + blocksFor 1 (B 1) + blocksFor 2 (B 2) + blocksFor 3 (B 3))

/-- accounting: `k i` blocks were given to class `i`, and their chunks are free or used by live messages -/
structure Acc (win : Bool) (B : Nat → Nat) (P : Pool) (L : List Live) (k : Nat → Nat) : Prop where
  idx : P.bufferIndex = 512 * (k 0 + k 1 + k 2 + k 3)
  chunks : ∀ i, i < 4 → (P.lists i).length + count win i L = k i * per i
  bound : ∀ i, i < 4 → k i ≤ blocksFor i (B i)

theorem per_pos {i : Nat} (h : i < 4) : 0 < per i := by
  unfold per; interval_cases i <;> decide

theorem grow_bound {i n k : Nat} (h : i < 4) (hk : k * per i < n) : k + 1 ≤ blocksFor i n := by
  unfold blocksFor
  have hp := per_pos h
  rw [Nat.le_div_iff_mul_le hp, Nat.add_mul, Nat.one_mul]
  omega

theorem sum4_update {k : Nat → Nat} {i : Nat} (h : i < 4) :
    (fun j => if j = i then k i + 1 else k j) 0 + (fun j => if j = i then k i + 1 else k j) 1 +
    (fun j => if j = i then k i + 1 else k j) 2 + (fun j => if j = i then k i + 1 else k j) 3 =
      k 0 + k 1 + k 2 + k 3 + 1 := by
  interval_cases i <;> simp <;> omega

theorem reachB_acc {win : Bool} {fuel base kb : Nat} (h64 : base + kb * 1024 ≤ 2^64) {B : Nat → Nat} {M : Mem} {P : Pool}
    {L : List Live} (h : ReachB win fuel base kb B M P L) : ∃ k, Acc win B P L k := by
  induction h with
  | init M =>
    exact ⟨fun _ => 0, rfl, fun i _ => by simp [init, count], fun i _ => by simp⟩
  | env _ _ ih => exact ih
  | @add M M' P P' L m t buf vs hr hs hex hlt ha ih =>
    obtain ⟨k, hk⟩ := ih
    obtain ⟨hI, hb, hsz⟩ := reach_inv h64 hr.reach
    rcases addMessage_spec hI hs (by omega) with ⟨hc, M1, P1, b1, e1, -, -, -, e5, e6, e7, -⟩ | ⟨-, e1⟩
    · rw [ha] at e1
      cases e1
      rw [hex] at hc e5 e6 e7
      generalize hi : cls win (needed vs) = i at *
      have hcnt : ∀ j, count win j (⟨buf, t, vs⟩ :: L) = count win j L + if j = i then 1 else 0 := fun j => by
        unfold count
        rw [List.countP_cons]
        simp only [hi]
        by_cases hj : j = i
        · simp [hj]
        · simp [hj, Ne.symm hj]
      by_cases hne : P.lists i = []
      · obtain ⟨f1, f2⟩ := e7 hne
        refine ⟨fun j => if j = i then k i + 1 else k j, ?_, ?_, ?_⟩
        · rw [sum4_update hc.1, f1, hk.idx]; omega
        · intro j hj
          rw [hcnt]
          have hkj := hk.chunks j hj
          by_cases hji : j = i
          · subst hji
            rw [hne] at hkj
            simp only [List.length_nil] at hkj
            simp only [if_true]
            have : (P'.lists j).length + 1 = per j := f2
            rw [Nat.add_mul, Nat.one_mul]
            omega
          · simp only [if_neg hji, e5 j hji]
            exact hkj
        · intro j hj
          by_cases hji : j = i
          · subst hji
            simp only [if_true]
            apply grow_bound hj
            have hkj := hk.chunks j hj
            rw [hne] at hkj
            simp only [List.length_nil] at hkj
            omega
          · simp only [if_neg hji]
            exact hk.bound j hj
      · obtain ⟨f1, f2⟩ := e6 hne
        refine ⟨k, by rw [f1, hk.idx], ?_, hk.bound⟩
        intro j hj
        rw [hcnt]
        have hkj := hk.chunks j hj
        by_cases hji : j = i
        · subst hji
          rw [f2]
          simp only [if_true, List.length_tail]
          have : 0 < (P.lists j).length := List.length_pos_iff.mpr hne
          omega
        · simp only [if_neg hji, e5 j hji]
          exact hkj
    · rw [ha] at e1; cases e1
  | @free M M' P P' L₁ L₂ l hr hf ih =>
    obtain ⟨k, hk⟩ := ih
    obtain ⟨hI, hb, hsz⟩ := reach_inv h64 hr.reach
    obtain ⟨M1, e1, -, -⟩ := freeMessage_spec hI
    rw [hf] at e1
    cases e1
    refine ⟨k, hk.idx, ?_, hk.bound⟩
    intro j hj
    have hkj := hk.chunks j hj
    simp only [count, List.countP_append, List.countP_cons] at hkj ⊢
    by_cases hji : j = cls win (needed l.vs)
    · subst hji
      simp [Pool.setList] at hkj ⊢
      omega
    · simp [Pool.setList, hji, Ne.symm hji] at hkj ⊢
      omega

/-- **C12** If messages declare a size of the class they need, at most `B i` messages of each class are ever live
at once, and the pool has room for that many, then it never runs out: however long the history, one more message
within the bound can always be added.
Partial: for messages that declare a larger class than they need it is false (below). -/
theorem pool_never_exhausted_partial (win : Bool) (fuel base kb : Nat) (h64 : base + kb * 1024 ≤ 2^64) (B : Nat → Nat)
    (hcap : capacity B ≤ kb * 1024) (M : Mem) (P : Pool) (L : List Live) (h : ReachB win fuel base kb B M P L)
    (m t : Nat) (vs : List Val) (hs : SrcOk win fuel M P L m t vs)
    (hex : cls win (getSize M m) = cls win (needed vs)) (hc4 : cls win (needed vs) < 4)
    (hlt : count win (cls win (needed vs)) L < B (cls win (needed vs))) :
    ∃ M' P' a, addMessage win fuel M P m = .ok (M', P', a) := by
  obtain ⟨k, hk⟩ := reachB_acc h64 h
  obtain ⟨hI, hb, hsz⟩ := reach_inv h64 h.reach
  rcases addMessage_spec hI hs (by omega) with ⟨-, M1, P1, b1, e1, -⟩ | ⟨hn, -⟩
  · exact ⟨M1, P1, b1, e1⟩
  · exfalso
    apply hn
    rw [hex]
    have := needed_ge hs.pos
    refine ⟨hc4, cls_fit win (needed vs) (by omega), ?_⟩
    by_cases hne : P.lists (cls win (needed vs)) = []
    · right
      have hck := hk.chunks _ hc4
      rw [hne] at hck
      simp only [List.length_nil] at hck
      generalize cls win (needed vs) = i at *
      have hg : k i + 1 ≤ blocksFor i (B i) := grow_bound hc4 (by omega)
      have h0 := hk.bound 0 (by omega)
      have h1 := hk.bound 1 (by omega)
      have h2 := hk.bound 2 (by omega)
      have h3 := hk.bound 3 (by omega)
      have hidx := hk.idx
      unfold capacity at hcap
      rw [hsz]
      have hsum : k 0 + k 1 + k 2 + k 3 + 1 ≤
          blocksFor 0 (B 0) + blocksFor 1 (B 1) + blocksFor 2 (B 2) + blocksFor 3 (B 3) := by
        interval_cases i <;> omega
      omega
    · exact .inl hne

/-- non-vacuity: the default 10 kB pool has room for 32 float messages, 16 messages of up to 64 bytes, 8 of up to
128 and 8 of up to 256 at any one time -/
example : capacity (fun i => if i = 0 then 128 else if i = 1 then 32 else if i = 2 then 16 else 8) ≤ 10 * 1024 := by
  decide

/-- adding and then freeing the same message -/
def round (win : Bool) (fuel : Nat) (M : Mem) (P : Pool) (m : Nat) : R (Mem × Pool) := do
  let (M, P, a) ← addMessage win fuel M P m
  freeMessage win M P a

def rounds (win : Bool) (fuel m : Nat) : Nat → Mem → Pool → R (Mem × Pool)
  | 0, M, P => .ok (M, P)
  | n + 1, M, P => do
    let (M, P) ← round win fuel M P m
    rounds win fuel m n M P

theorem round_spec {win : Bool} {fuel : Nat} {M : Mem} {P : Pool} (hI : PInv win M P []) (h64 : P.buffer + P.bufferSize ≤ 2^64)
    {m t : Nat} {vs : List Val} (hs : SrcOk win fuel M P [] m t vs) (hdecl : needed vs ≤ getSize M m)
    (hc4 : cls win (getSize M m) < 4) (hne : cls win (needed vs) ≠ cls win (getSize M m))
    (hφ : 0 < (P.lists (cls win (getSize M m))).length + per (cls win (getSize M m)) * ((P.bufferSize - P.bufferIndex) / 512)) :
    ∃ M' P', round win fuel M P m = .ok (M', P') ∧ PInv win M' P' [] ∧ P'.buffer = P.buffer ∧ P'.bufferSize = P.bufferSize ∧
      (∀ x, x < P.buffer ∨ P.buffer + P.bufferSize ≤ x → M' x = M x) ∧
      (P'.lists (cls win (getSize M m))).length + per (cls win (getSize M m)) * ((P'.bufferSize - P'.bufferIndex) / 512) + 1 =
        (P.lists (cls win (getSize M m))).length + per (cls win (getSize M m)) * ((P.bufferSize - P.bufferIndex) / 512) := by
  have hge := needed_ge hs.pos
  have hp := per_pos hc4
  rcases addMessage_spec hI hs h64 with ⟨hc, M1, P1, b1, e1, e2, e3, e4, e5, e6, e7, e8⟩ | ⟨hn, -⟩
  · obtain ⟨M2, f1, f2, f3⟩ := freeMessage_spec (L₁ := []) (L₂ := []) e2
    simp only at f1 f2
    unfold round
    rw [e1]
    simp only [bind, Except.bind]
    rw [f1]
    refine ⟨M2, _, rfl, f2, e3, e4, ?_, ?_⟩
    · intro x hx
      rw [f3 x (by rw [e3, e4]; exact hx), e8 x hx]
    · simp only [Pool.setList]
      rw [if_neg (Ne.symm hne)]
      by_cases hne' : P.lists (cls win (getSize M m)) = []
      · obtain ⟨g1, g2⟩ := e7 hne'
        have hsp := hc.2.2.resolve_left (fun h => h hne')
        rw [hne', g1, e4, List.length_nil]
        have : (P.bufferSize - P.bufferIndex) / 512 = (P.bufferSize - (P.bufferIndex + 512)) / 512 + 1 := by omega
        rw [this, Nat.mul_add, Nat.mul_one]
        unfold per at *
        omega
      · obtain ⟨g1, g2⟩ := e6 hne'
        rw [g1, g2, e4, List.length_tail]
        have : 0 < (P.lists (cls win (getSize M m))).length := List.length_pos_iff.mpr hne'
        omega
  · exfalso
    apply hn
    refine ⟨hc4, Nat.le_trans hdecl (cls_fit win _ hs.decl2), ?_⟩
    by_cases hne' : P.lists (cls win (getSize M m)) = []
    · right
      rw [hne', List.length_nil, Nat.zero_add] at hφ
      have : 0 < (P.bufferSize - P.bufferIndex) / 512 := Nat.pos_of_mul_pos_left hφ
      omega
    · exact .inl hne'

/-- **C12 is false for messages that declare a larger class than they need** (finding F5): however large the pool,
adding and immediately freeing one such message over and over exhausts it, although never more than one message is
live. -/
theorem overcounted_message_leaks (win : Bool) (fuel base kb : Nat) (h64 : base + kb * 1024 ≤ 2^64) (M : Mem)
    (m t : Nat) (vs : List Val) (hm : IsMsg M m t vs) (hpos : 0 < vs.length)
    (hcore : m + (8 + 16 * vs.length) ≤ base ∨ base + kb * 1024 ≤ m)
    (hstr : ∀ i (h : i < vs.length) s, vs[i] = .sym s → s.length < fuel ∧
      (rd M (m + 8 + 16 * i + 8) 8 + s.length < base ∨ base + kb * 1024 ≤ rd M (m + 8 + 16 * i + 8) 8))
    (hdecl : needed vs ≤ getSize M m) (hc4 : cls win (getSize M m) < 4)
    (hne : cls win (needed vs) ≠ cls win (getSize M m)) :
    ∃ n M' P', rounds win fuel m n M (init base kb) = .ok (M', P') ∧ addMessage win fuel M' P' m = .error .assertFail := by
  have hge := needed_ge hpos
  -- generalise over the state
  suffices key : ∀ n (M' : Mem) (P' : Pool), PInv win M' P' [] → P'.buffer = base → P'.bufferSize = kb * 1024 →
      (∀ x, x < base ∨ base + kb * 1024 ≤ x → M' x = M x) →
      n = (P'.lists (cls win (getSize M m))).length + per (cls win (getSize M m)) * ((P'.bufferSize - P'.bufferIndex) / 512) →
      ∃ M2 P2, rounds win fuel m n M' P' = .ok (M2, P2) ∧ addMessage win fuel M2 P2 m = .error .assertFail by
    obtain ⟨M2, P2, h⟩ := key _ M (init base kb) (pinv_init win M base kb) rfl rfl (fun _ _ => rfl) rfl
    exact ⟨_, M2, P2, h⟩
  intro n
  induction n with
  | zero =>
    intro M' P' hI hb hsz hM hn
    refine ⟨M', P', rfl, ?_⟩
    have hs : getSize M' m = getSize M m := rd_congr fun x h1 h2 => hM x (by omega)
    have hsrc : SrcOk win fuel M' P' [] m t vs := by
      have hptr : ∀ i, i < vs.length → rd M' (m + 8 + 16 * i + 8) 8 = rd M (m + 8 + 16 * i + 8) 8 := fun i hi =>
        rd_congr fun x h1 h2 => hM x (by omega)
      refine ⟨⟨?_, ?_, ?_⟩, hpos, .inl (by omega), ?_, fun _ => by omega, by omega⟩
      · rw [← hm.ts]; exact rd_congr fun x h1 h2 => hM x (by omega)
      · rw [← hm.num]; exact rd_congr fun x h1 h2 => hM x (by omega)
      · intro i hi
        refine (hm.elem i hi).congr (fun b hb => (hM _ (by omega)).symm) ?_
        intro s hs x h1 h2
        have := (hstr i hi s hs).2
        exact (hM x (by omega)).symm
      · intro i hi s hs
        rw [hptr i hi]
        have := hstr i hi s hs
        exact ⟨.inl (by omega), this.1⟩
    rcases addMessage_spec hI hsrc (by omega) with ⟨hc, -⟩ | ⟨-, e⟩
    · exfalso
      rw [hs] at hc
      have hp := per_pos hc4
      have h1 : (P'.lists (cls win (getSize M m))).length = 0 := by omega
      have h2 : per (cls win (getSize M m)) * ((P'.bufferSize - P'.bufferIndex) / 512) = 0 := by omega
      have h3 : (P'.bufferSize - P'.bufferIndex) / 512 = 0 := by
        rcases Nat.mul_eq_zero.mp h2 with h | h
        · omega
        · exact h
      rcases hc.2.2 with h | h
      · exact h (List.length_eq_zero_iff.mp h1)
      · omega
    · exact e
  | succ n ih =>
    intro M' P' hI hb hsz hM hn
    have hs : getSize M' m = getSize M m := rd_congr fun x h1 h2 => hM x (by omega)
    have hsrc : SrcOk win fuel M' P' [] m t vs := by
      have hptr : ∀ i, i < vs.length → rd M' (m + 8 + 16 * i + 8) 8 = rd M (m + 8 + 16 * i + 8) 8 := fun i hi =>
        rd_congr fun x h1 h2 => hM x (by omega)
      refine ⟨⟨?_, ?_, ?_⟩, hpos, .inl (by omega), ?_, fun _ => by omega, by omega⟩
      · rw [← hm.ts]; exact rd_congr fun x h1 h2 => hM x (by omega)
      · rw [← hm.num]; exact rd_congr fun x h1 h2 => hM x (by omega)
      · intro i hi
        refine (hm.elem i hi).congr (fun b hb => (hM _ (by omega)).symm) ?_
        intro s hs x h1 h2
        have := (hstr i hi s hs).2
        exact (hM x (by omega)).symm
      · intro i hi s hs
        rw [hptr i hi]
        have := hstr i hi s hs
        exact ⟨.inl (by omega), this.1⟩
    obtain ⟨M2, P2, e1, e2, e3, e4, e5, e6⟩ := round_spec hI (by omega) hsrc (by omega) (by rw [hs]; exact hc4)
      (by rw [hs]; exact hne) (by rw [hs]; omega)
    rw [hs] at e6
    obtain ⟨M3, P3, f1, f2⟩ := ih M2 P2 e2 (by omega) (by omega)
      (fun x hx => by rw [e5 x (by omega), hM x hx]) (by omega)
    refine ⟨M3, P3, ?_, f2⟩
    unfold rounds
    rw [e1]
    exact f1

/-- finding F5 made concrete: a message built by `msg_initWithSymbol` with a symbol of seven characters
(declared size 39, needed 32) is such a message, so sending `1234567` often enough exhausts any pool. -/
theorem seven_character_symbol_leaks (fuel base kb : Nat) (h64 : base + kb * 1024 ≤ 2^64) (M0 : Mem) (m t p : Nat)
    (ht : t < 2^32) (s : List Byte) (hlen : s.length = 7) (hp : PutIs fuel M0 m (m + 24) (.sym p) (.sym s))
    (hcore : m + 24 ≤ base ∨ base + kb * 1024 ≤ m) (hstr : p + 7 < base ∨ base + kb * 1024 ≤ p) :
    ∃ M, initWithSymbol fuel M0 m t p = .ok M ∧ IsMsg M m t [.sym s] ∧
      ∃ n M' P', rounds false fuel m n M (init base kb) = .ok (M', P') ∧
        addMessage false fuel M' P' m = .error .assertFail := by
  have hn : needed [.sym s] = 32 := by simp [needed, symBytes, hlen]
  obtain ⟨M, e1, hM, hptr, e3⟩ := initWithSymbol_overcounts fuel M0 m t p s ht hp (by rw [hn, hlen]; decide)
  refine ⟨M, e1, hM, ?_⟩
  rw [hn, hlen] at e3
  simp only [PutIs] at hp
  refine overcounted_message_leaks false fuel base kb h64 M m t [.sym s] hM (by simp) (by simpa using hcore) ?_ ?_ ?_ ?_
  · intro i hi r hr
    have : i = 0 := by simp at hi; omega
    subst this
    simp at hr
    subst hr
    simp only [Nat.mul_zero, Nat.add_zero]
    rw [show m + 8 + 8 = m + 16 by omega, hptr, hlen]
    exact ⟨by omega, hstr⟩
  · rw [hn, e3]; omega
  · rw [e3]; decide
  · rw [e3, hn]; decide

/-- memory holding the text `1111111` at address 1000 -/
def exText : Mem := fun x => if 1000 ≤ x ∧ x < 1007 then 49 else 0

/-- the hypotheses are satisfiable: the text `1111111`, a 10 kB pool at 65536 (the default size), a message core at
2000; hence the leak does happen -/
example : ∃ M, initWithSymbol 10 exText 2000 0 1000 = .ok M ∧ IsMsg M 2000 0 [.sym (List.replicate 7 49)] ∧
    ∃ n M' P', rounds false 10 2000 n M (init 65536 10) = .ok (M', P') ∧
      addMessage false 10 M' P' 2000 = .error .assertFail :=
  seven_character_symbol_leaks 10 65536 10 (by decide) exText 2000 0 1000 (by decide) _ (by decide)
    (by simp only [PutIs, IsStr, List.replicate]; decide) (by decide) (by decide)

example : cls false 39 = 1 ∧ cls false 32 = 0 ∧ cls false 24 = 0 ∧ cls false 33 = 1 ∧ cls false 256 = 3 ∧ cls false 257 = 4 := by
  decide

/-- finding F23: with the `HV_WIN` variant of `hv_min_max_log2`, sizes that are powers of two are put one class too
high; a message of exactly 256 bytes is refused there although the documented limit allows it. -/
example : cls true 32 = 1 ∧ cls true 64 = 2 ∧ cls true 256 = 4 := by decide

end Verif.Pool
