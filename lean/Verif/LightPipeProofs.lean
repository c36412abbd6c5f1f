import Verif.LightPipe
/-! Helper lemmas and the main invariant for the light pipe. -/
namespace Verif.LightPipe

theorem read32_write32_same (mem : Nat → Byte) (a v : Nat) (h : v < 2^32) :
    read32 (write32 mem a v) a = v := by
  have h1 : ¬ (a + 1 = a) := by omega
  have h2 : ¬ (a + 2 = a) := by omega
  have h3 : ¬ (a + 3 = a) := by omega
  have h4 : ¬ (a + 2 = a + 1) := by omega
  have h5 : ¬ (a + 3 = a + 1) := by omega
  have h6 : ¬ (a + 3 = a + 2) := by omega
  simp only [read32, write32, h1, h2, h3, h4, h5, h6, if_true, if_false, UInt8.toNat_ofNat']
  omega

theorem read32_congr {mem mem' : Nat → Byte} {a : Nat}
    (h : ∀ i, a ≤ i → i < a + 4 → mem' i = mem i) : read32 mem' a = read32 mem a := by
  simp only [read32]
  rw [h a (by omega) (by omega), h (a+1) (by omega) (by omega), h (a+2) (by omega) (by omega),
    h (a+3) (by omega) (by omega)]

theorem write32_other {mem : Nat → Byte} {a v i : Nat} (h : i < a ∨ a + 4 ≤ i) :
    write32 mem a v i = mem i := by
  simp only [write32]
  rw [if_neg (by omega), if_neg (by omega), if_neg (by omega), if_neg (by omega)]

theorem write8_other {mem : Nat → Byte} {a : Nat} {b : Byte} {i : Nat} (h : i ≠ a) :
    write8 mem a b i = mem i := by
  simp [write8, h]

/-- Messages for which the pipe works: not empty, a whole number of 32-bit words, and so short that
`n + 8` does not wrap around in 32 bits. -/
def MsgOk (m : Msg) : Prop := 0 < m.length ∧ m.length % 4 = 0 ∧ m.length + 8 < 2^32

/-- `mem` holds at `a + 4` the bytes of `m`. -/
def Bytes (mem : Nat → Byte) (a : Nat) (m : Msg) (k : Nat) : Prop :=
  ∀ i, i < k → m[i]? = some (mem (a + 4 + i))

/-- `Chain mem a ms b`: from offset `a` to offset `b` the memory contains exactly the records of
the messages `ms`. -/
def Chain (mem : Nat → Byte) : Nat → List Msg → Nat → Prop
  | a, [], b => a = b
  | a, m :: ms, b => read32 mem a = m.length ∧ Bytes mem a m m.length ∧ MsgOk m ∧
      Chain mem (a + 4 + m.length) ms b

theorem Bytes.frame {mem mem' a m k} (h : Bytes mem a m k)
    (hf : ∀ i, a + 4 ≤ i → i < a + 4 + k → mem' i = mem i) : Bytes mem' a m k := by
  intro i hi
  rw [h i hi, hf _ (by omega) (by omega)]

theorem Chain.le {mem a ms b} (h : Chain mem a ms b) : a ≤ b := by
  induction ms generalizing a with
  | nil => simp [Chain] at h; omega
  | cons m ms ih => have := ih h.2.2.2; omega

theorem Chain.frame {mem mem' a ms b} (h : Chain mem a ms b)
    (hf : ∀ i, a ≤ i → i < b → mem' i = mem i) : Chain mem' a ms b := by
  induction ms generalizing a with
  | nil => exact h
  | cons m ms ih =>
    obtain ⟨h1, h2, h3, h4⟩ := h
    have hle := h4.le
    refine ⟨?_, h2.frame ?_, h3, ih h4 ?_⟩
    · rw [read32_congr, h1]
      intro i hi hi'
      have := h3.1
      exact hf i (by omega) (by omega)
    · intro i hi hi'; exact hf i (by omega) (by omega)
    · intro i hi hi'; exact hf i (by omega) (by omega)

theorem Chain.append {mem a ms b m} (h : Chain mem a ms b) (h1 : read32 mem b = m.length)
    (h2 : Bytes mem b m m.length) (h3 : MsgOk m) : Chain mem a (ms ++ [m]) (b + 4 + m.length) := by
  induction ms generalizing a with
  | nil => simp only [Chain] at h; subst h; exact ⟨h1, h2, h3, rfl⟩
  | cons x ms ih => exact ⟨h.1, h.2.1, h.2.2.1, ih h.2.2.2⟩

theorem Chain.mod {mem a ms b} (h : Chain mem a ms b) (ha : a % 4 = 0) : b % 4 = 0 := by
  induction ms generalizing a with
  | nil => simp [Chain] at h; omega
  | cons m ms ih => have := h.2.2.1.2.1; exact ih h.2.2.2 (by omega)

/-- Layout of the unread messages `Q` in memory: read head `rd`, committed write position `wc`. -/
inductive Lay (mem : Nat → Byte) (len rd wc : Nat) : List Msg → Prop
  | flat {Q} : Chain mem rd Q wc → read32 mem wc = STOP → wc + 4 ≤ len → Lay mem len rd wc Q
  | wrap {Q1 Q2 e} : Chain mem rd Q1 e → read32 mem e = LOOP → e + 4 ≤ len →
      Chain mem 0 Q2 wc → read32 mem wc = STOP → wc + 4 ≤ rd → Lay mem len rd wc (Q1 ++ Q2)

theorem Lay.wc_le {mem len rd wc Q} (h : Lay mem len rd wc Q) : wc + 4 ≤ len := by
  cases h with
  | flat h1 h2 h3 => exact h3
  | wrap h1 h2 h3 h4 h5 h6 => have := h1.le; omega

theorem Lay.rd_le {mem len rd wc Q} (h : Lay mem len rd wc Q) : rd + 4 ≤ len := by
  cases h with
  | flat h1 h2 h3 => have := h1.le; omega
  | wrap h1 h2 h3 h4 h5 h6 => have := h1.le; omega

/-- memory changes confined to the free space do not change the layout -/
theorem Lay.frame {mem mem' len rd wc Q} (h : Lay mem len rd wc Q)
    (hf : ∀ i, (rd ≤ wc → rd ≤ i ∧ i < wc + 4) → (wc < rd → i < wc + 4 ∨ rd ≤ i) →
      mem' i = mem i) : Lay mem' len rd wc Q := by
  cases h with
  | flat h1 h2 h3 =>
    have hle := h1.le
    refine .flat (h1.frame ?_) ?_ h3
    · intro i hi hi'; exact hf i (fun _ => by omega) (by omega)
    · rw [read32_congr, h2]
      intro i hi hi'; exact hf i (fun _ => by omega) (by omega)
  | wrap h1 h2 h3 h4 h5 h6 =>
    have hle := h1.le
    have hle' := h4.le
    refine .wrap (h1.frame ?_) ?_ h3 (h4.frame ?_) ?_ h6
    · intro i hi hi'; exact hf i (by omega) (by omega)
    · rw [read32_congr, h2]
      intro i hi hi'; exact hf i (by omega) (by omega)
    · intro i hi hi'; exact hf i (by omega) (by omega)
    · rw [read32_congr, h5]
      intro i hi hi'; exact hf i (by omega) (by omega)

/-- what the consumer can find at its read head -/
theorem Lay.head {mem len rd wc Q} (h : Lay mem len rd wc Q) :
    (Q = [] ∧ read32 mem rd = STOP) ∨
    (read32 mem rd = LOOP ∧ wc < rd ∧ Lay mem len 0 wc Q) ∨
    (∃ m Q', Q = m :: Q' ∧ read32 mem rd = m.length ∧ Bytes mem rd m m.length ∧ MsgOk m ∧
      rd + 4 + m.length + 4 ≤ len ∧ Lay mem len (rd + 4 + m.length) wc Q' ∧
      (wc < rd → rd + 4 + m.length + 4 ≤ len) ∧ (rd ≤ wc → rd + 4 + m.length ≤ wc)) := by
  cases h with
  | flat h1 h2 h3 =>
    cases Q with
    | nil => simp only [Chain] at h1; subst h1; exact .inl ⟨rfl, h2⟩
    | cons m Q' =>
      obtain ⟨a1, a2, a3, a4⟩ := h1
      have := a4.le
      exact .inr (.inr ⟨m, Q', rfl, a1, a2, a3, by omega, .flat a4 h2 h3, by omega, by omega⟩)
  | @wrap Q1 Q2 e h1 h2 h3 h4 h5 h6 =>
    have := h4.le
    have hle := h1.le
    cases Q1 with
    | nil =>
      simp only [Chain] at h1; subst h1
      exact .inr (.inl ⟨h2, by omega, .flat h4 h5 (by omega)⟩)
    | cons m Q' =>
      obtain ⟨a1, a2, a3, a4⟩ := h1
      have := a4.le
      exact .inr (.inr ⟨m, Q' ++ Q2, rfl, a1, a2, a3, by omega,
        .wrap a4 h2 h3 h4 h5 (by omega), by omega, by omega⟩)

/-- publishing the length word of a fully prepared record appends the message -/
theorem Lay.commit {mem len rd wc Q m} (h : Lay mem len rd wc Q) (hm : MsgOk m)
    (hb : Bytes mem wc m m.length) (hs : read32 mem (wc + 4 + m.length) = STOP)
    (hl : wc + m.length + 8 ≤ len) (hsp : rd ≤ wc ∨ wc + m.length + 8 ≤ rd) :
    Lay (write32 mem wc m.length) len rd (wc + 4 + m.length) (Q ++ [m]) := by
  have hlt : m.length < 2^32 := by have := hm.2.2; omega
  have hb' : Bytes (write32 mem wc m.length) wc m m.length :=
    hb.frame (fun i hi hi' => write32_other (by omega))
  have hs' : read32 (write32 mem wc m.length) (wc + 4 + m.length) = STOP := by
    rw [read32_congr, hs]; intro i hi hi'; exact write32_other (by omega)
  have hr := read32_write32_same mem wc m.length hlt
  cases h with
  | flat h1 h2 h3 =>
    refine .flat (Chain.append (h1.frame ?_) hr hb' hm) hs' (by omega)
    intro i hi hi'; exact write32_other (by omega)
  | @wrap Q1 Q2 e h1 h2 h3 h4 h5 h6 =>
    have hle := h1.le
    rw [List.append_assoc]
    refine .wrap (h1.frame ?_) ?_ h3 (Chain.append (h4.frame ?_) hr hb' hm) hs' (by omega)
    · intro i hi hi'; exact write32_other (by omega)
    · rw [read32_congr, h2]; intro i hi hi'; exact write32_other (by omega)
    · intro i hi hi'; exact write32_other (by omega)

/-- writing the loop marker moves the write position to the start of the buffer -/
theorem Lay.loop {mem len rd wc Q} (h : Lay mem len rd wc Q) (hflat : rd ≤ wc)
    (h0 : read32 mem 0 = STOP) (hrd : 4 ≤ rd) :
    Lay (write32 mem wc LOOP) len rd 0 Q := by
  cases h with
  | flat h1 h2 h3 =>
    have := @Lay.wrap (write32 mem wc LOOP) len rd 0 Q [] wc
      (h1.frame (fun i hi hi' => write32_other (by omega)))
      (read32_write32_same mem wc LOOP (by decide)) h3 rfl
      (by rw [read32_congr, h0]; intro i hi hi'; exact write32_other (by omega)) (by omega)
    simpa using this
  | wrap h1 h2 h3 h4 h5 h6 => omega

/-- Invariant of the producer: `wc` is the committed write position. -/
def PInv (q : Pipe) (wc : Nat) : PPc → Prop
  | .idle => q.wr = wc ∧ q.rem = q.len - wc
  | .loopStop m old => MsgOk m ∧ q.wr = 0 ∧ q.rem = q.len ∧ wc = old ∧ q.rd ≤ old ∧
      m.length + 8 ≤ q.rd
  | .loopLoop m old => MsgOk m ∧ q.wr = 0 ∧ q.rem = q.len ∧ wc = old ∧ q.rd ≤ old ∧
      m.length + 8 ≤ q.rd ∧ read32 q.mem 0 = STOP
  | .fill m k => MsgOk m ∧ q.wr = wc ∧ q.rem = q.len - wc ∧ wc + m.length + 8 ≤ q.len ∧
      (q.rd ≤ wc ∨ wc + m.length + 8 ≤ q.rd) ∧ k ≤ m.length ∧ Bytes q.mem wc m k
  | .prodStop m => MsgOk m ∧ q.wr = wc ∧ q.rem = q.len - wc ∧ wc + m.length + 8 ≤ q.len ∧
      (q.rd ≤ wc ∨ wc + m.length + 8 ≤ q.rd) ∧ Bytes q.mem wc m m.length
  | .prodLen m old => MsgOk m ∧ old = wc ∧ q.wr = wc + 4 + m.length ∧ q.rem = q.len - q.wr ∧
      wc + m.length + 8 ≤ q.len ∧ (q.rd ≤ wc ∨ wc + m.length + 8 ≤ q.rd) ∧
      Bytes q.mem wc m m.length ∧ read32 q.mem (wc + 4 + m.length) = STOP

/-- Invariant of the consumer, given the unread messages `Q`. -/
def CInv (q : Pipe) (Q : List Msg) : CPc → Prop
  | .idle => True
  | .sawLoop => read32 q.mem q.rd = LOOP
  | .reread => q.rd = 0
  | .gotData => ∃ m Q', Q = m :: Q' ∧ read32 q.mem q.rd = m.length
  | .reading n k acc => ∃ m Q', Q = m :: Q' ∧ read32 q.mem q.rd = m.length ∧ n = m.length ∧
      k ≤ n ∧ acc = m.take k
  | .consume => ∃ m Q', Q = m :: Q' ∧ read32 q.mem q.rd = m.length

/-- Messages not yet handed to the consumer's client. -/
def undelivered (Q : List Msg) : CPc → List Msg
  | .consume => Q.tail
  | _ => Q

def Inv (s : St) : Prop :=
  ∃ wc Q, Lay s.q.mem s.q.len s.q.rd wc Q ∧ s.q.len < 2^32 ∧ s.q.rd % 4 = 0 ∧ wc % 4 = 0 ∧
    PInv s.q wc s.p ∧ CInv s.q Q s.c ∧ s.sent = s.got ++ undelivered Q s.c

theorem inv_init (junk : Nat → Byte) (n : Nat) (h4 : 4 ≤ n) (h : n < 2^32) :
    Inv (initSt junk n) := by
  refine ⟨0, [], .flat rfl (read32_write32_same _ _ _ (by decide)) h4, h, rfl, rfl, ⟨rfl, rfl⟩,
    trivial, rfl⟩

theorem read32_lt (mem : Nat → Byte) (a : Nat) : read32 mem a < 2^32 := by
  have h0 := (mem a).toNat_lt
  have h1 := (mem (a+1)).toNat_lt
  have h2 := (mem (a+2)).toNat_lt
  have h3 := (mem (a+3)).toNat_lt
  simp only [read32]; omega

/-- A change of memory in the free space does not disturb the consumer. -/
theorem CInv.frame {q q' : Pipe} {Q c} (h : CInv q Q c) (hrd : q'.rd = q.rd)
    (hw : read32 q'.mem q.rd = read32 q.mem q.rd) : CInv q' Q c := by
  cases c <;> simp only [CInv] at * <;> simp only [hrd, hw] <;> exact h

/-- Appending to the unread messages does not disturb the consumer. -/
theorem CInv.append {q : Pipe} {Q c} (m : Msg) (h : CInv q Q c) : CInv q (Q ++ [m]) c := by
  cases c <;> simp only [CInv] at *
  · exact h
  · exact h
  all_goals
    obtain ⟨x, Q', rfl, h⟩ := h
    exact ⟨x, Q' ++ [m], rfl, h⟩

theorem undelivered_append {q : Pipe} {Q c} (m : Msg) (h : CInv q Q c) :
    undelivered (Q ++ [m]) c = undelivered Q c ++ [m] := by
  cases c <;> simp only [undelivered]
  obtain ⟨x, Q', rfl, h⟩ := h
  rfl

/-- In the flat layout, or with enough room, a store into the free space after `wc` keeps layout and
consumer invariants. -/
theorem free_store {q : Pipe} {wc Q c} {mem' : Nat → Byte} (n : Nat)
    (hL : Lay q.mem q.len q.rd wc Q) (hC : CInv q Q c)
    (hsp : q.rd ≤ wc ∨ wc + n + 8 ≤ q.rd)
    (hf : ∀ i, i < wc + 4 ∨ wc + n + 8 ≤ i → mem' i = q.mem i) :
    Lay mem' q.len q.rd wc Q ∧ CInv { q with mem := mem' } Q c := by
  refine ⟨hL.frame ?_, hC.frame rfl ?_⟩
  · intro i h1 h2
    apply hf
    by_cases hh : q.rd ≤ wc
    · have := h1 hh; omega
    · have := h2 (by omega); omega
  · refine read32_congr (fun i hi hi' => hf i ?_)
    by_cases hh : q.rd ≤ wc
    · omega
    · omega

theorem inv_send {s : St} (hI : Inv s) {m : Msg} (hm : MsgOk m) (hp : s.p = .idle) :
    Inv (beginSend s m) := by
  obtain ⟨wc, Q, hL, hlen, hrd, hwc, hP, hC, hs⟩ := hI
  rw [hp] at hP
  obtain ⟨hw, hr⟩ := hP
  have hwl := hL.wc_le
  have htot : (m.length + 8) % 2^32 = m.length + 8 := Nat.mod_eq_of_lt hm.2.2
  unfold beginSend decision
  rw [htot]
  have hm4 := hm.2.1
  split
  · exact ⟨wc, Q, hL, hlen, hrd, hwc, by rw [hp]; exact ⟨hw, hr⟩, hC, hs⟩
  · rename_i hd
    refine ⟨wc, Q, hL, hlen, hrd, hwc, ?_, hC, hs⟩
    simp only at hd
    split at hd
    · split at hd
      · cases hd
      · rename_i h1 h2
        refine ⟨hm, hw, hr, by simp only; omega, ?_, by omega, fun i hi => absurd hi (by omega)⟩
        simp only
        omega
    · split at hd
      · split at hd <;> cases hd
      · cases hd
  · rename_i hd
    refine ⟨wc, Q, hL, hlen, hrd, hwc, ?_, hC.frame rfl rfl, hs⟩
    simp only at hd
    split at hd
    · split at hd <;> cases hd
    · split at hd
      · split at hd
        · cases hd
        · rename_i h1 h2 h3
          refine ⟨hm, rfl, rfl, by simpa using hw.symm, ?_, ?_⟩ <;> simp only <;> omega
      · cases hd

theorem st32_ok {q : Pipe} {a v : Nat} (h : a + 4 ≤ q.len) :
    st32 q a v = .ok { q with mem := write32 q.mem a v } := by simp [st32, h]

theorem st8_ok {q : Pipe} {a : Nat} {b : Byte} (h : a + 1 ≤ q.len) :
    st8 q a b = .ok { q with mem := write8 q.mem a b } := by simp [st8, h]

theorem ld32_ok {q : Pipe} {a : Nat} (h : a + 4 ≤ q.len) :
    ld32 q a = .ok (read32 q.mem a) := by simp [ld32, h]

theorem ld8_ok {q : Pipe} {a : Nat} (h : a + 1 ≤ q.len) :
    ld8 q a = .ok (q.mem a) := by simp [ld8, h]

theorem inv_prod {s : St} (hI : Inv s) : ∃ s', prodStep s = .ok s' ∧ Inv s' := by
  obtain ⟨wc, Q, hL, hlen, hrd, hwc, hP, hC, hs⟩ := hI
  have hwl := hL.wc_le
  have hrl := hL.rd_le
  unfold prodStep
  cases hp : s.p with
  | idle =>
    exact ⟨s, rfl, wc, Q, hL, hlen, hrd, hwc, hP, hC, hs⟩
  | loopStop m old =>
    rw [hp] at hP
    obtain ⟨hm, hw, hr, he, hle, hsz⟩ := hP
    have hb : 0 + 4 ≤ s.q.len := by omega
    simp only [st32_ok hb, bind, Except.bind]
    refine ⟨_, rfl, wc, Q, ?_, hlen, hrd, hwc,
      ⟨hm, hw, hr, he, hle, hsz, read32_write32_same _ _ _ (by decide)⟩, hC.frame rfl ?_, hs⟩
    · refine hL.frame (fun i h1 h2 => write32_other ?_)
      have := h1 (by omega); omega
    · exact read32_congr (fun i hi hi' => write32_other (by omega))
  | loopLoop m old =>
    rw [hp] at hP
    obtain ⟨hm, hw, hr, he, hle, hsz, h0⟩ := hP
    subst he
    simp only [st32_ok hwl, bind, Except.bind]
    refine ⟨_, rfl, 0, Q,
      hL.loop (by omega) h0 (by omega), hlen, hrd, rfl,
      ⟨hm, hw, by simpa using hr, by simp only; omega, .inr (by simp only; omega), by omega,
        fun i hi => absurd hi (by omega)⟩, ?_, hs⟩
    by_cases hh : s.q.rd = wc
    · -- the consumer is at the loop marker: nothing unread before it
      have hQ : Q = [] := by
        cases hL with
        | flat h1 h2 h3 =>
          cases Q with
          | nil => rfl
          | cons x Q => have := h1.2.2.2.le; omega
        | wrap h1 h2 h3 h4 h5 h6 => omega
      subst hQ
      have hst : read32 s.q.mem s.q.rd = STOP := by
        rcases hL.head with h | h | h
        · exact h.2
        · omega
        · obtain ⟨_, _, h, _⟩ := h; cases h
      cases hc : s.c <;> rw [hc] at hC <;> simp only [CInv] at hC ⊢
      · rw [hst] at hC; cases hC
      · omega
      all_goals (obtain ⟨_, _, h, _⟩ := hC; cases h)
    · exact hC.frame rfl (read32_congr (fun i hi hi' => write32_other (by omega)))
  | fill m k =>
    rw [hp] at hP
    obtain ⟨hm, hw, hr, hl, hsp, hk, hb⟩ := hP
    simp only
    cases hmk : m[k]? with
    | some b =>
      have hkl : k < m.length := (List.getElem?_eq_some_iff.mp hmk).1
      have hin : s.q.wr + 4 + k + 1 ≤ s.q.len := by omega
      simp only [st8_ok hin, bind, Except.bind]
      obtain ⟨hL', hC'⟩ := free_store (mem' := write8 s.q.mem (s.q.wr + 4 + k) b) m.length hL hC hsp
        (fun i hi => write8_other (by omega))
      refine ⟨_, rfl, wc, Q, hL', hlen, hrd, hwc, ⟨hm, hw, hr, hl, hsp, by omega, ?_⟩, hC', hs⟩
      intro i hi
      by_cases hik : i = k
      · subst hik; simp [write8, hw, hmk]
      · rw [hb i (by omega)]; simp only [write8]; rw [if_neg (by omega)]
    | none =>
      have hkl : m.length ≤ k := List.getElem?_eq_none_iff.mp hmk
      have : k = m.length := by omega
      subst this
      exact ⟨_, rfl, wc, Q, hL, hlen, hrd, hwc, ⟨hm, hw, hr, hl, hsp, hb⟩, hC, hs⟩
  | prodStop m =>
    rw [hp] at hP
    obtain ⟨hm, hw, hr, hl, hsp, hb⟩ := hP
    have h1 : s.q.rem ≥ m.length + 8 := by omega
    simp only [if_pos h1]
    rw [st32_ok (by simp only; omega)]
    simp only [bind, Except.bind]
    obtain ⟨hL', hC'⟩ := free_store (mem' := write32 s.q.mem (s.q.wr + (4 + m.length)) STOP)
      m.length hL hC hsp (fun i hi => write32_other (by omega))
    refine ⟨_, rfl, wc, Q, hL', hlen, hrd, hwc, ⟨hm, hw, ?_, ?_, hl, hsp, ?_, ?_⟩,
      hC'.frame rfl rfl, hs⟩
    · simp only; omega
    · simp only; omega
    · exact hb.frame (fun i hi hi' => write32_other (by omega))
    · simp only
      rw [show s.q.wr + (4 + m.length) = wc + 4 + m.length by omega]
      exact read32_write32_same _ _ _ (by decide)
  | prodLen m old =>
    rw [hp] at hP
    obtain ⟨hm, he, hw, hr, hl, hsp, hb, hst⟩ := hP
    subst he
    simp only [st32_ok hwl, bind, Except.bind]
    have hm4 := hm.2.1
    refine ⟨_, rfl, old + 4 + m.length, Q ++ [m], hL.commit hm hb hst hl hsp, hlen, hrd, by omega,
      ⟨hw, by simp only; omega⟩, ?_, ?_⟩
    · by_cases hh : s.q.rd = old
      · have hQ : Q = [] := by
          cases hL with
          | flat h1 h2 h3 =>
            cases Q with
            | nil => rfl
            | cons x Q => have := h1.2.2.2.le; omega
          | wrap h1 h2 h3 h4 h5 h6 => omega
        subst hQ
        have hst : read32 s.q.mem s.q.rd = STOP := by
          rcases hL.head with h | h | h
          · exact h.2
          · omega
          · obtain ⟨_, _, h, _⟩ := h; cases h
        cases hc : s.c <;> rw [hc] at hC <;> simp only [CInv] at hC ⊢
        · rw [hst] at hC; cases hC
        · exact hC
        all_goals (obtain ⟨_, _, h, _⟩ := hC; cases h)
      · refine CInv.append m (hC.frame rfl (read32_congr (fun i hi hi' => write32_other ?_)))
        by_cases h1 : s.q.rd ≤ old
        · omega
        · omega
    · simp only
      rw [undelivered_append m hC, hs, List.append_assoc]

theorem inv_cons {s : St} (hI : Inv s) : ∃ s', consStep s = .ok s' ∧ Inv s' := by
  obtain ⟨wc, Q, hL, hlen, hrd, hwc, hP, hC, hs⟩ := hI
  have hrl := hL.rd_le
  have hhead := hL.head
  unfold consStep
  cases hc : s.c with
  | idle =>
    simp only [ld32_ok hrl, bind, Except.bind]
    rw [hc] at hs
    split
    · rename_i h
      exact ⟨_, rfl, wc, Q, hL, hlen, hrd, hwc, hP, h, hs⟩
    · split
      · exact ⟨_, rfl, wc, Q, hL, hlen, hrd, hwc, hP, hC, by rw [hc]; exact hs⟩
      · rename_i h1 h2
        refine ⟨_, rfl, wc, Q, hL, hlen, hrd, hwc, hP, ?_, hs⟩
        rcases hhead with h | h | ⟨m, Q', h, h', _⟩
        · exact absurd h.2 h2
        · exact absurd h.1 h1
        · exact ⟨m, Q', h, h'⟩
  | sawLoop =>
    rw [hc] at hC hs
    have hC : read32 s.q.mem s.q.rd = LOOP := hC
    rcases hhead with h | ⟨_, hlt, hL0⟩ | ⟨m, Q', _, h, _, hm, _⟩
    · rw [hC] at h; exact absurd h.2 (by decide)
    · refine ⟨_, rfl, wc, Q, hL0, hlen, rfl, hwc, ?_, rfl, hs⟩
      cases hp : s.p <;> rw [hp] at hP <;> simp only [PInv] at hP ⊢
      · exact hP
      · omega
      · omega
      · obtain ⟨a, b, c, d, e, f⟩ := hP; exact ⟨a, b, c, d, .inl (by omega), f⟩
      · obtain ⟨a, b, c, d, e, f⟩ := hP; exact ⟨a, b, c, d, .inl (by omega), f⟩
      · obtain ⟨a, b, c, d, e, f, g⟩ := hP; exact ⟨a, b, c, d, e, .inl (by omega), g⟩
    · rw [hC] at h; have := hm.2.2; simp only [LOOP] at h; omega
  | reread =>
    rw [hc] at hC hs
    have hC : s.q.rd = 0 := hC
    simp only [ld32_ok hrl, bind, Except.bind]
    split
    · exact ⟨_, rfl, wc, Q, hL, hlen, hrd, hwc, hP, trivial, hs⟩
    · rename_i h2
      refine ⟨_, rfl, wc, Q, hL, hlen, hrd, hwc, hP, ?_, hs⟩
      rcases hhead with h | ⟨_, h, _⟩ | ⟨m, Q', h, h', _⟩
      · exact absurd h.2 h2
      · omega
      · exact ⟨m, Q', h, h'⟩
  | gotData =>
    rw [hc] at hC hs
    obtain ⟨m, Q', h, h'⟩ := hC
    simp only [ld32_ok hrl, bind, Except.bind]
    exact ⟨_, rfl, wc, Q, hL, hlen, hrd, hwc, hP, ⟨m, Q', h, h', h', by omega, by simp⟩, hs⟩
  | reading n k acc =>
    rw [hc] at hC hs
    obtain ⟨m, Q', hQ, h', hn, hk, hacc⟩ := hC
    subst hn hacc
    rcases hhead with h | ⟨h, _⟩ | ⟨m2, Q2, hQ2, h2, hb, hm, hbd, _⟩
    · rw [h.1] at hQ; cases hQ
    · have hlt : m.length + 4 ≤ s.q.len ∨ True := .inr trivial
      rcases hL.head with g | ⟨_, g, g'⟩ | ⟨m2, Q2, hQ2, h2, hb, hm, hbd, _⟩
      · rw [g.1] at hQ; cases hQ
      · -- the first unread message would have the loop marker as its length
        subst hQ
        rcases g'.head with k1 | ⟨_, k2, _⟩ | ⟨m3, Q3, hQ3, h3, hb3, hm3, _⟩
        · cases k1.1
        · omega
        · cases hQ3
          have := hm3.2.2
          rw [h'] at h; simp only [LOOP] at h; omega
      · rw [hQ] at hQ2; cases hQ2
        have := hm.2.2
        rw [h'] at h; simp only [LOOP] at h; omega
    · rw [hQ] at hQ2; cases hQ2
      simp only
      split
      · rename_i hkn
        rw [ld8_ok (by omega)]
        simp only [bind, Except.bind]
        refine ⟨_, rfl, wc, Q, hL, hlen, hrd, hwc, hP, ⟨m, Q', hQ, h', rfl, by omega, ?_⟩, hs⟩
        rw [List.take_add_one, hb k hkn]; rfl
      · have : k = m.length := by omega
        subst this
        refine ⟨_, rfl, wc, Q, hL, hlen, hrd, hwc, hP, ⟨m, Q', hQ, h'⟩, ?_⟩
        simp only [hs, undelivered, hQ, List.take_length, List.tail_cons, List.append_assoc,
          List.cons_append, List.nil_append]
  | consume =>
    rw [hc] at hC hs
    obtain ⟨m, Q', hQ, h'⟩ := hC
    simp only [ld32_ok hrl, bind, Except.bind]
    have hmain : ∃ (hm : MsgOk m), Lay s.q.mem s.q.len (s.q.rd + 4 + m.length) wc Q' ∧
        (s.q.rd ≤ wc → s.q.rd + 4 + m.length ≤ wc) := by
      rcases hL.head with g | ⟨h, g, g'⟩ | ⟨m2, Q2, hQ2, h2, hb, hm, hbd, hL', _, hle⟩
      · rw [g.1] at hQ; cases hQ
      · subst hQ
        rcases g'.head with k1 | ⟨_, k2, _⟩ | ⟨m3, Q3, hQ3, h3, hb3, hm3, _⟩
        · cases k1.1
        · omega
        · cases hQ3
          have := hm3.2.2
          rw [h'] at h; simp only [LOOP] at h; omega
      · rw [hQ] at hQ2; cases hQ2
        exact ⟨hm, hL', hle⟩
    obtain ⟨hm, hL', hle⟩ := hmain
    have hm0 := hm.1
    have hm4 := hm.2.1
    rw [if_neg (by rw [h']; simp only [STOP]; omega), h',
      show s.q.rd + (4 + m.length) = s.q.rd + 4 + m.length by omega]
    refine ⟨_, rfl, wc, Q', hL', hlen, by simp only; omega, hwc, ?_, trivial, ?_⟩
    · cases hp : s.p <;> rw [hp] at hP <;> simp only [PInv] at hP ⊢
      · exact hP
      · obtain ⟨a, b, c, d, e, f⟩ := hP; exact ⟨a, b, c, d, by omega, by omega⟩
      · obtain ⟨a, b, c, d, e, f, g⟩ := hP; exact ⟨a, b, c, d, by omega, by omega, g⟩
      · obtain ⟨a, b, c, d, e, f⟩ := hP; exact ⟨a, b, c, d, by omega, f⟩
      · obtain ⟨a, b, c, d, e, f⟩ := hP; exact ⟨a, b, c, d, by omega, f⟩
      · obtain ⟨a, b, c, d, e, f, g⟩ := hP; exact ⟨a, b, c, d, e, by omega, g⟩
    · simpa [undelivered, hQ] using hs

end Verif.LightPipe
