import Verif.HostMsg
import Verif.Props.Message
/-!
# C83: messages cross between a host and the patch unchanged
-/
namespace Verif.HostMsg
open Mem Msg

/-- the core of the message at `m` and the texts of its symbols lie outside the `room` bytes at `p` -/
def Apart (M : Mem) (m : Nat) (vs : List Val) (p room : Nat) : Prop :=
  (m + (8 + 16 * vs.length) ≤ p ∨ p + room ≤ m) ∧
  ∀ i (h : i < vs.length) s, vs[i] = .sym s →
    rd M (m + 8 + 16 * i + 8) 8 + s.length < p ∨ p + room ≤ rd M (m + 8 + 16 * i + 8) 8

/-- **specification**: the bytes at `p` are a complete record: destination `hash`, and a message with time `ts` and
elements `vs` whose texts are inside the record -/
structure Record (M : Mem) (p hash ts : Nat) (vs : List Val) : Prop where
  hash : rd M p 4 = hash
  msg : IsMsg M (p + 8) ts vs
  own : SelfContained M (p + 8) (needed vs) vs
  size : getSize M (p + 8) = needed vs

theorem isMsg_congr {M N : Mem} {m t : Nat} {vs : List Val} (h : IsMsg M m t vs)
    (hc : ∀ x, m ≤ x → x < m + (8 + 16 * vs.length) → M x = N x)
    (hs : ∀ i (hi : i < vs.length) s, vs[i] = .sym s → ∀ x, rd M (m + 8 + 16 * i + 8) 8 ≤ x →
      x ≤ rd M (m + 8 + 16 * i + 8) 8 + s.length → M x = N x) : IsMsg N m t vs := by
  refine ⟨?_, ?_, ?_⟩
  · rw [← h.ts]; exact (rd_congr fun x g1 g2 => hc x (by omega) (by omega)).symm
  · rw [← h.num]; exact (rd_congr fun x g1 g2 => hc x (by omega) (by omega)).symm
  · intro i hi
    refine (h.elem i hi).congr (fun b hb => hc _ (by omega) (by omega)) ?_
    intro s he x g1 g2
    exact hs i hi s he x g1 g2

theorem needed_core (vs : List Val) : 8 + 16 * vs.length ≤ needed vs := by unfold needed; omega

/-- the common part of `sendMessageToReceiver` and `defaultSendHook` -/
theorem copied {fuel : Nat} {M : Mem} {p hash m t : Nat} {vs : List Val} (hm : IsMsg M m t vs) (hpos : 0 < vs.length)
    (hf : ∀ s, Val.sym s ∈ vs → s.length < fuel) (hash32 : hash < 2^32)
    (ha : Apart M m vs p (8 + getSize M m)) (h64 : p + 8 + getSize M m ≤ 2^64) :
    (needed vs ≤ getSize M m → ∃ M', copyToBuffer fuel (wr M p 4 hash) m (p + 8) (getSize M m) = .ok M' ∧
      Record M' p hash t vs ∧ ∀ x, x < p ∨ p + 8 + needed vs ≤ x → M' x = M x) ∧
    (getSize M m < needed vs → copyToBuffer fuel (wr M p 4 hash) m (p + 8) (getSize M m) = .error .assertFail) := by
  have hout : ∀ x, x < p ∨ p + (8 + getSize M m) ≤ x → M x = wr M p 4 hash x := fun x hx => by
    rw [wr_out (by omega)]
  have hm1 : IsMsg (wr M p 4 hash) m t vs := isMsg_congr hm
    (fun x g1 g2 => hout x (by have := ha.1; omega))
    (fun i hi s he x g1 g2 => hout x (by have := ha.2 i hi s he; omega))
  have hsrc : Src fuel (wr M p 4 hash) m (p + 8) (getSize M m) t vs := by
    refine ⟨hm1, hpos, by have := ha.1; omega, fun i hi s he => ⟨?_, hf s (he ▸ List.getElem_mem hi)⟩⟩
    have hptr : rd (wr M p 4 hash) (m + 8 + 16 * i + 8) 8 = rd M (m + 8 + 16 * i + 8) 8 :=
      (rd_congr fun x g1 g2 => hout x (by have := ha.1; omega)).symm
    rw [hptr]
    have := ha.2 i hi s he
    omega
  obtain ⟨h1, h2⟩ := copyToBuffer_correct fuel _ m (p + 8) (getSize M m) t vs hsrc h64
  refine ⟨fun hn => ?_, h2⟩
  obtain ⟨M', e1, e2, e3, e4, e5⟩ := h1 hn
  have hlt : getSize M m < 256 ^ 2 := rd_lt M (m + 6) 2
  refine ⟨M', e1, ⟨?_, e2, e3, ?_⟩, fun x hx => ?_⟩
  · rw [rd_congr fun x g1 g2 => e5 x (by omega)]
    exact rd_wr_lt (by omega)
  · rw [e4, Nat.mod_eq_of_lt (by omega)]
  · rw [e5 x (by omega), wr_out (by omega)]

/-- **C83 (`sendMessageToReceiver`)** A well formed message `m` whose declared size is large enough is put into the
queue as a record with the destination, the time and exactly the elements of `m`, texts included, so that nothing of
the record points to memory of the caller; no byte outside the record is changed.  If the declared size is too small
the call stops at an assertion. -/
theorem send_message (fuel : Nat) (M : Mem) (p hash ts m t : Nat) (vs : List Val) (hm : IsMsg M m t vs)
    (hpos : 0 < vs.length) (hf : ∀ s, Val.sym s ∈ vs → s.length < fuel) (hash32 : hash < 2^32) (ts32 : ts < 2^32)
    (ha : Apart M m vs p (8 + getSize M m)) (h64 : p + 8 + getSize M m ≤ 2^64) :
    (needed vs ≤ getSize M m → ∃ M', sendMessage fuel M p hash ts m = .ok (M', 8 + getSize M m) ∧
      Record M' p hash ts vs ∧ ∀ x, x < p ∨ p + 8 + needed vs ≤ x → M' x = M x) ∧
    (getSize M m < needed vs → sendMessage fuel M p hash ts m = .error .assertFail) := by
  obtain ⟨h1, h2⟩ := copied (fuel := fuel) hm hpos hf hash32 ha h64
  constructor
  · intro hn
    obtain ⟨M', e1, e2, e3⟩ := h1 hn
    have hcore := needed_core vs
    refine ⟨setTimestamp M' (p + 8) ts, ?_, ⟨?_, ?_, ?_, ?_⟩, ?_⟩
    · simp only [sendMessage, bind, Except.bind, e1]
      congr 2
      omega
    · rw [← e2.hash]; exact rd_wr_out (by omega)
    · refine ⟨rd_wr_lt (by omega), ?_, fun i hi => ?_⟩
      · rw [← e2.msg.num]; exact rd_wr_out (by omega)
      · refine (e2.msg.elem i hi).congr (fun b hb => (wr_out (by omega)).symm) ?_
        intro s he x g1 g2
        have := (e2.own i hi s he).1
        exact (wr_out (by omega)).symm
    · intro i hi s he
      have := e2.own i hi s he
      rw [setTimestamp, rd_wr_out (by omega)]
      exact this
    · rw [← e2.size]; exact rd_wr_out (by omega)
    · intro x hx
      rw [setTimestamp, wr_out (by omega)]
      exact e3 x hx
  · intro hn
    simp only [sendMessage, bind, Except.bind, h2 hn]

/-- **C83 (`defaultSendHook`)** the same for a message the patch sends to the host's out queue; its time is kept. -/
theorem default_send_hook (fuel : Nat) (M : Mem) (p hash m t : Nat) (vs : List Val) (hm : IsMsg M m t vs)
    (hpos : 0 < vs.length) (hf : ∀ s, Val.sym s ∈ vs → s.length < fuel) (hash32 : hash < 2^32)
    (ha : Apart M m vs p (8 + getSize M m)) (h64 : p + 8 + getSize M m ≤ 2^64) :
    (needed vs ≤ getSize M m → ∃ M', defaultSendHook fuel M p hash m = .ok (M', 8 + getSize M m) ∧
      Record M' p hash t vs ∧ ∀ x, x < p ∨ p + 8 + needed vs ≤ x → M' x = M x) ∧
    (getSize M m < needed vs → defaultSendHook fuel M p hash m = .error .assertFail) := by
  obtain ⟨h1, h2⟩ := copied (fuel := fuel) hm hpos hf hash32 ha h64
  constructor
  · intro hn
    obtain ⟨M', e1, e2, e3⟩ := h1 hn
    refine ⟨M', ?_, e2, e3⟩
    simp only [defaultSendHook, bind, Except.bind, e1]
    congr 2
    omega
  · intro hn
    simp only [defaultSendHook, bind, Except.bind, h2 hn]

/-! ## Building the message in the order of its elements -/

/-- setter calls for elements `i`, `i + 1`, … -/
def fill (fuel : Nat) (M : Mem) (m : Nat) : Nat → List Put → R Mem
  | _, [] => .ok M
  | i, p :: ps => do fill fuel (← put fuel M m (i : Int) p) m (i + 1) ps

theorem fill_spec {fuel m n : Nat} (ps : List (Put × Val)) : ∀ {M : Mem} {i : Nat}, numElements M m = n →
    i + ps.length ≤ n → (∀ p ∈ ps, PutIs fuel M m (m + (8 + 16 * n)) p.1 p.2) →
    getSize M m + (ps.map fun p => symBytes p.2).sum < 2^16 →
    ∃ M', fill fuel M m i (ps.map (·.1)) = .ok M' ∧
      (∀ j (h : j < ps.length), ElemIs M' (m + 8 + 16 * (i + j)) ps[j].2 ∧
        ∀ q, ps[j].1 = .sym q → rd M' (m + 8 + 16 * (i + j) + 8) 8 = q) ∧
      (∀ x, x < m + 6 ∨ m + 8 ≤ x ∧ x < m + 8 + 16 * i ∨ m + 8 + 16 * n ≤ x → M' x = M x) ∧
      getSize M' m = getSize M m + (ps.map fun p => symBytes p.2).sum := by
  induction ps with
  | nil => intro M i _ _ _ _; exact ⟨M, rfl, by simp, fun x _ => rfl, by simp⟩
  | cons pv ps ih =>
    intro M i hn hlen hps hsz
    obtain ⟨p, v⟩ := pv
    simp only [List.length_cons, List.map_cons, List.sum_cons] at *
    have hp := hps (p, v) (by simp)
    simp only at hp
    obtain ⟨M1, e1, e2, e3, e4⟩ := put_spec hn (i := i) (by omega) hp
    have hout1 : ∀ x, x < m ∨ m + (8 + 16 * n) ≤ x → M x = M1 x := fun x hx => (e3 x (by omega)).symm
    have hn1 : numElements M1 m = n := by rw [← hn]; exact rd_congr fun x _ _ => e3 x (by omega)
    have e4' : getSize M1 m = getSize M m + symBytes v := by rw [e4, Nat.mod_eq_of_lt (by omega)]
    obtain ⟨M', f1, f2, f3, f4⟩ := ih (M := M1) (i := i + 1) hn1 (by omega)
      (fun q hq => (hps q (by simp [hq])).congr hout1) (by omega)
    refine ⟨M', ?_, ?_, ?_, by omega⟩
    · simp only [fill, e1, bind, Except.bind]; exact f1
    · intro j hj
      rcases j with _ | j
      · simp only [List.getElem_cons_zero, Nat.add_zero]
        have hby : ∀ b, b < 16 → M1 (m + 8 + 16 * i + b) = M' (m + 8 + 16 * i + b) := fun b hb =>
          (f3 _ (by omega)).symm
        have hptr : rd M' (m + 8 + 16 * i + 8) 8 = rd M1 (m + 8 + 16 * i + 8) 8 :=
          rd_congr fun x g1 g2 => f3 x (by omega)
        have hsym : ∀ q, p = .sym q → rd M1 (m + 8 + 16 * i + 8) 8 = q := by
          intro q hq
          subst hq
          cases v <;> simp only [PutIs] at hp
          rename_i s
          exact put_sym_ptr hn (by omega) (s := s) (by simpa only [PutIs] using hp) e1
        refine ⟨e2.congr hby fun s hs x g1 g2 => ?_, fun q hq => by rw [hptr]; exact hsym q hq⟩
        subst hs
        cases p <;> simp only [PutIs] at hp
        rename_i q
        rw [hsym q rfl] at g1 g2
        exact (f3 x (by omega)).symm
      · have := f2 j (by simpa using hj)
        simpa only [List.getElem_cons_succ, show i + 1 + j = i + (j + 1) by omega] using this
    · intro x hx
      rw [f3 x (by omega), e3 x (by omega)]

theorem getSize_init {M M' : Mem} {m n t : Nat} (hn : 0 < n) (h : init M m n t = .ok M') (hs : 8 + 16 * n < 2^16) :
    getSize M' m = 8 + 16 * n := by
  unfold init at h
  rw [coreSize_ok hn] at h
  cases h
  unfold getSize
  exact rd_wr_lt (by omega)

/-- **C83 (building)** A message made with `msg_init` and then one setter per element, in order, is the list of the
values given, and declares exactly the size its copy needs. -/
theorem build (fuel : Nat) (M : Mem) (m t : Nat) (ht : t < 2^32) (ps : List (Put × Val)) (hne : 0 < ps.length)
    (hps : ∀ q ∈ ps, PutIs fuel M m (m + (8 + 16 * ps.length)) q.1 q.2)
    (hfit : needed (ps.map (·.2)) < 2^16) :
    ∃ M0 M', init M m ps.length t = .ok M0 ∧ fill fuel M0 m 0 (ps.map (·.1)) = .ok M' ∧
      IsMsg M' m t (ps.map (·.2)) ∧ getSize M' m = needed (ps.map (·.2)) ∧
      (∀ i (h : i < ps.length) q, ps[i].1 = .sym q → rd M' (m + 8 + 16 * i + 8) 8 = q) ∧
      ∀ x, x < m ∨ m + (8 + 16 * ps.length) ≤ x → M' x = M x := by
  have hnd : needed (ps.map (·.2)) = 8 + 16 * ps.length + (ps.map fun p => symBytes p.2).sum := by
    simp [needed, Function.comp_def]
  rw [hnd] at hfit ⊢
  obtain ⟨M0, e0, hB⟩ := init_spec (M := M) (m := m) hne (by omega) ht
  have hz := getSize_init hne e0 (by omega)
  obtain ⟨M', f1, f2, f3, f4⟩ := fill_spec (fuel := fuel) (m := m) ps (M := M0) (i := 0) hB.num (by omega)
    (fun q hq => (hps q hq).congr fun x hx => (hB.out x hx).symm) (by omega)
  refine ⟨M0, M', e0, f1, ⟨?_, ?_, ?_⟩, by omega, ?_, ?_⟩
  · rw [← hB.ts]; exact rd_congr fun x _ _ => f3 x (by omega)
  · rw [List.length_map, ← hB.num]; exact rd_congr fun x _ _ => f3 x (by omega)
  · intro i hi
    have := (f2 i (by simpa using hi)).1
    simpa using this
  · intro i hi q hq
    have := (f2 i hi).2 q hq
    simpa using this
  · intro x hx
    rw [f3 x (by omega), hB.out x hx]

/-- where things are: the message under construction (`n` elements at `st`), the record (`room` bytes at `p`), and
every argument outside both -/
structure Places (fuel : Nat) (M : Mem) (st p : Nat) (ps : List (Put × Val)) : Prop where
  apart : st + (8 + 16 * ps.length) ≤ p ∨ p + 8 + needed (ps.map (·.2)) ≤ st
  core : ∀ q ∈ ps, PutIs fuel M st (st + (8 + 16 * ps.length)) q.1 q.2
  room : ∀ q ∈ ps, PutIs fuel M p (p + 8 + needed (ps.map (·.2))) q.1 q.2
  fits : needed (ps.map (·.2)) < 2^16
  end64 : p + 8 + needed (ps.map (·.2)) ≤ 2^64

theorem putIs_sym {fuel : Nat} {M : Mem} {a b : Nat} {q : Put} {s : List Byte} (h : PutIs fuel M a b q (.sym s)) :
    ∃ r, q = .sym r ∧ (r + s.length < a ∨ b ≤ r) ∧ s.length < fuel ∧ IsStr M r s := by
  cases q <;> simp only [PutIs] at h
  exact ⟨_, rfl, h.2.2.2.1, h.2.2.2.2, h.2.2.1⟩

theorem fill_send {fuel : Nat} {M : Mem} {st p hash ts t : Nat} (hash32 : hash < 2^32) (ts32 : ts < 2^32) (ht : t < 2^32)
    {ps : List (Put × Val)} (hne : 0 < ps.length) (hpl : Places fuel M st p ps) :
    ∃ M0 M1 M', init M st ps.length t = .ok M0 ∧ fill fuel M0 st 0 (ps.map (·.1)) = .ok M1 ∧
      sendMessage fuel M1 p hash ts st = .ok (M', 8 + needed (ps.map (·.2))) ∧ Record M' p hash ts (ps.map (·.2)) ∧
      (∀ x, x < st ∨ st + (8 + 16 * ps.length) ≤ x → M1 x = M x) ∧
      ∀ x, (x < st ∨ st + (8 + 16 * ps.length) ≤ x) → (x < p ∨ p + 8 + needed (ps.map (·.2)) ≤ x) → M' x = M x := by
  obtain ⟨M0, M1, e0, e1, e2, e3, e4, e5⟩ := build fuel M st t ht ps hne hpl.core hpl.fits
  have hap : Apart M1 st (ps.map (·.2)) p (8 + getSize M1 st) := by
    rw [e3]
    refine ⟨by simpa [Nat.add_assoc] using hpl.apart, fun i hi s he => ?_⟩
    have hi' : i < ps.length := by simpa using hi
    have he' : ps[i].2 = .sym s := by simpa using he
    have hr := hpl.room ps[i] (List.getElem_mem hi')
    rw [he'] at hr
    obtain ⟨r, hr1, hr2, -, -⟩ := putIs_sym hr
    rw [e4 i hi' r hr1]
    omega
  have hfu : ∀ s, Val.sym s ∈ ps.map (·.2) → s.length < fuel := by
    intro s hs
    obtain ⟨q, hq, hq2⟩ := List.mem_map.1 hs
    have hr := hpl.room q hq
    rw [hq2] at hr
    obtain ⟨r, -, -, h, -⟩ := putIs_sym hr
    exact h
  obtain ⟨M', f1, f2, f3⟩ := (send_message fuel M1 p hash ts st t (ps.map (·.2)) e2 (by simpa using hne) hfu hash32 ts32
    hap (by rw [e3]; exact hpl.end64)).1 (by omega)
  refine ⟨M0, M1, M', e0, e1, by rw [f1, e3], f2, e5, fun x hx hx' => ?_⟩
  rw [f3 x hx', e5 x hx]

/-! ## The host's calls -/

theorem initWithFloat_eq (M : Mem) (m t : Nat) (f : BitVec 32) :
    initWithFloat M m t f = (do fill 0 (← init M m 1 t) m 0 [.float f]) := by
  rw [init, coreSize_ok (by omega)]
  simp only [initWithFloat, initHeader, bind, Except.bind, fill, put]
  cases setFloat (wr (wr (wr M m 4 t) (m + 4) 2 1) (m + 6) 2 24) m 0 f <;> rfl

theorem initWithBang_eq (M : Mem) (m t : Nat) :
    initWithBang M m t = (do fill 0 (← init M m 1 t) m 0 [.bang]) := by
  rw [init, coreSize_ok (by omega)]
  simp only [initWithBang, initHeader, bind, Except.bind, fill, put]
  cases setBang (wr (wr (wr M m 4 t) (m + 4) 2 1) (m + 6) 2 24) m 0 <;> rfl

/-- **C83 (`sendFloatToReceiver`)** -/
theorem send_float (fuel : Nat) (M : Mem) (st p hash ts : Nat) (f : BitVec 32) (hash32 : hash < 2^32) (ts32 : ts < 2^32)
    (hd : st + 24 ≤ p ∨ p + 32 ≤ st) (h64 : p + 32 ≤ 2^64) :
    ∃ M', sendFloat fuel M st p hash ts f = .ok (M', 32) ∧ Record M' p hash ts [.float f] := by
  have hpl : Places 0 M st p [(.float f, .float f)] :=
    ⟨by simpa [needed, symBytes, Nat.add_assoc] using hd, by simp [PutIs], by simp [PutIs], by simp [needed, symBytes],
      by simpa [needed, symBytes, Nat.add_assoc] using h64⟩
  obtain ⟨M0, M1, e0, e1, e2, e3, -, -⟩ := build 0 M st 0 (by omega) _ (by simp) hpl.core hpl.fits
  simp only [List.map_cons, List.map_nil, List.length_cons, List.length_nil, Nat.zero_add] at e0 e1 e2 e3
  have hn : needed [Val.float f] = 24 := rfl
  obtain ⟨M', f1, f2, -⟩ := (send_message fuel M1 p hash ts st 0 _ e2 (by simp) (by simp) hash32 ts32
    ⟨by rw [e3, hn]; exact hd, by simp⟩ (by rw [e3, hn]; omega)).1 (by omega)
  refine ⟨M', ?_, f2⟩
  rw [sendFloat, initWithFloat_eq, e0]
  simp only [bind, Except.bind]
  rw [e1]
  simp only
  rw [f1, e3, hn]

/-- **C83 (`sendBangToReceiver`)** -/
theorem send_bang (fuel : Nat) (M : Mem) (st p hash ts : Nat) (hash32 : hash < 2^32) (ts32 : ts < 2^32)
    (hd : st + 24 ≤ p ∨ p + 32 ≤ st) (h64 : p + 32 ≤ 2^64) :
    ∃ M', sendBang fuel M st p hash ts = .ok (M', 32) ∧ Record M' p hash ts [.bang] := by
  have hpl : Places 0 M st p [(.bang, .bang)] :=
    ⟨by simpa [needed, symBytes, Nat.add_assoc] using hd, by simp [PutIs], by simp [PutIs], by simp [needed, symBytes],
      by simpa [needed, symBytes, Nat.add_assoc] using h64⟩
  obtain ⟨M0, M1, e0, e1, e2, e3, -, -⟩ := build 0 M st 0 (by omega) _ (by simp) hpl.core hpl.fits
  simp only [List.map_cons, List.map_nil, List.length_cons, List.length_nil, Nat.zero_add] at e0 e1 e2 e3
  have hn : needed [Val.bang] = 24 := rfl
  obtain ⟨M', f1, f2, -⟩ := (send_message fuel M1 p hash ts st 0 _ e2 (by simp) (by simp) hash32 ts32
    ⟨by rw [e3, hn]; exact hd, by simp⟩ (by rw [e3, hn]; omega)).1 (by omega)
  refine ⟨M', ?_, f2⟩
  rw [sendBang, initWithBang_eq, e0]
  simp only [bind, Except.bind]
  rw [e1]
  simp only
  rw [f1, e3, hn]

theorem needed_sym (s : List Byte) : needed [Val.sym s] = 25 + s.length := by simp [needed, symBytes]; omega

theorem initWithSymbol_out {fuel : Nat} {M M' : Mem} {m t p : Nat} {s : List Byte}
    (hp : PutIs fuel M m (m + 24) (.sym p) (.sym s)) (h : initWithSymbol fuel M m t p = .ok M') :
    ∀ x, x < m ∨ m + 24 ≤ x → M' x = M x := by
  unfold initWithSymbol at h
  simp only [bind, Except.bind] at h
  have hp1 := hp.congr (N := wr (wr M m 4 t) (m + 4) 2 1) fun x hx => by rw [wr_out (by omega), wr_out (by omega)]
  have hp1' := hp1
  simp only [PutIs] at hp1'
  rw [strlenR_ok hp1'.2.2.1 hp1'.2.2.2.2] at h
  simp only at h
  generalize hMg : wr (wr (wr M m 4 t) (m + 4) 2 1) (m + 6) 2 (24 + s.length % 2^16) = Mg at h
  have hn : numElements Mg m = 1 := by
    unfold numElements; rw [← hMg, rd_wr_out (by omega), rd_wr_lt (by decide)]
  have hp2 : PutIs fuel Mg m (m + (8 + 16 * 1)) (.sym p) (.sym s) :=
    hp1.congr fun x hx => by rw [← hMg]; exact (wr_out (by omega)).symm
  obtain ⟨M2, e1, -, e3, -⟩ := put_spec hn (i := 0) (by omega) hp2
  have : M2 = M' := by simpa [put, h] using e1.symm
  intro x hx
  rw [← this, e3 x (by omega), ← hMg, wr_out (by omega), wr_out (by omega), wr_out (by omega)]

/-- **C83 (`sendSymbolToReceiver`)** the text itself is in the record: the caller may free or change its string as soon
as the call returns.  (The record handed to the queue is longer than necessary by the length of the text, because
`msg_initWithSymbol` counts it twice.) -/
theorem send_symbol (fuel : Nat) (M : Mem) (st p hash ts q : Nat) (s : List Byte) (hash32 : hash < 2^32) (ts32 : ts < 2^32)
    (hc : PutIs fuel M st (st + 24) (.sym q) (.sym s)) (hr : PutIs fuel M p (p + 33 + 2 * s.length) (.sym q) (.sym s))
    (hd : st + 24 ≤ p ∨ p + 33 + 2 * s.length ≤ st) (hfit : 25 + 2 * s.length < 2^16)
    (h64 : p + 33 + 2 * s.length ≤ 2^64) :
    ∃ M', sendSymbol fuel M st p hash ts q = .ok (M', 33 + 2 * s.length) ∧ Record M' p hash ts [.sym s] := by
  have hn := needed_sym s
  obtain ⟨M1, e1, e2, e3, e4⟩ := initWithSymbol_overcounts fuel M st 0 q s (by omega) hc (by omega)
  have hr' := hr
  have hc' := hc
  simp only [PutIs] at hr' hc'
  have hap : Apart M1 st [.sym s] p (8 + getSize M1 st) := by
    rw [e4, hn]
    refine ⟨by simp only [List.length_cons, List.length_nil]; omega, fun i hi u hu => ?_⟩
    have : i = 0 := by simp at hi; omega
    subst this
    simp only [List.getElem_cons_zero, Val.sym.injEq] at hu
    subst hu
    rw [show st + 8 + 16 * 0 + 8 = st + 16 by omega, e3]
    omega
  obtain ⟨M', f1, f2, -⟩ := (send_message fuel M1 p hash ts st 0 [.sym s] e2 (by simp) (by simpa using hr'.2.2.2.2)
    hash32 ts32 hap (by rw [e4, hn]; omega)).1 (by omega)
  refine ⟨M', ?_, f2⟩
  simp only [sendSymbol, bind, Except.bind]
  rw [assert_true (by simp; omega), e1]
  simp only
  rw [f1, e4, hn]
  congr 2
  omega

/-- **specification** of `sendMessageToReceiverV`: the format letters with their arguments are these values -/
inductive FmtIs (fuel : Nat) (M : Mem) : List Byte → List Arg → List (Put × Val) → Prop
  | nil : FmtIs fuel M [] [] []
  | bang {cs as ps} : FmtIs fuel M cs as ps → FmtIs fuel M (chB :: cs) as ((.bang, .bang) :: ps)
  | float {cs as ps} (f : BitVec 32) : FmtIs fuel M cs as ps →
      FmtIs fuel M (chF :: cs) (.dbl f :: as) ((.float f, .float f) :: ps)
  | hash {cs as ps} (h : BitVec 32) : FmtIs fuel M cs as ps →
      FmtIs fuel M (chH :: cs) (.int h :: as) ((.hash h, .hash h) :: ps)
  | sym {cs as ps} (q : Nat) (s : List Byte) : IsStr M q s → FmtIs fuel M cs as ps →
      FmtIs fuel M (chS :: cs) (.ptr q :: as) ((.sym q, .sym s) :: ps)

theorem fillV_eq {fuel : Nat} {M0 : Mem} {m : Nat} {fmt : List Byte} {as : List Arg} {ps : List (Put × Val)}
    (h : FmtIs fuel M0 fmt as ps) : ∀ (M : Mem) (i : Nat), fillV fuel M m i fmt as = fill fuel M m i (ps.map (·.1)) := by
  induction h with
  | nil => intro M i; rfl
  | bang h ih =>
    intro M i
    simp only [fillV, List.map_cons, fill, put, if_true]
    exact bind_congr fun M1 => ih M1 (i + 1)
  | float f h ih =>
    intro M i
    simp only [fillV, List.map_cons, fill, put]
    rw [if_neg (by decide), if_pos trivial]
    exact bind_congr fun M1 => ih M1 (i + 1)
  | hash f h ih =>
    intro M i
    simp only [fillV, List.map_cons, fill, put]
    rw [if_neg (by decide), if_neg (by decide), if_pos trivial]
    exact bind_congr fun M1 => ih M1 (i + 1)
  | sym q s hq h ih =>
    intro M i
    simp only [fillV, List.map_cons, fill, put]
    rw [if_neg (by decide), if_neg (by decide), if_neg (by decide), if_pos trivial]
    exact bind_congr fun M1 => ih M1 (i + 1)

theorem FmtIs.length {fuel : Nat} {M : Mem} {fmt : List Byte} {as : List Arg} {ps : List (Put × Val)}
    (h : FmtIs fuel M fmt as ps) : ps.length = fmt.length := by
  induction h <;> simp_all

/-- **C83 (`sendMessageToReceiverV`)** a format of the letters `b f h s` with matching arguments sends exactly those
values. -/
theorem send_v (fuel : Nat) (M : Mem) (st p hash ts : Nat) (hash32 : hash < 2^32) (ts32 : ts < 2^32)
    (fmt : List Byte) (as : List Arg) (ps : List (Put × Val)) (hfmt : FmtIs fuel M fmt as ps) (hne : fmt ≠ [])
    (hpl : Places fuel M st p ps) :
    ∃ M', sendV fuel M st p hash ts fmt as = .ok (M', 8 + needed (ps.map (·.2))) ∧
      Record M' p hash ts (ps.map (·.2)) := by
  have hlen := hfmt.length
  obtain ⟨M0, M1, M', e0, e1, e2, e3, -, -⟩ := fill_send hash32 ts32 ts32
    (by rw [hlen]; exact List.length_pos_iff.2 hne) hpl
  refine ⟨M', ?_, e3⟩
  rw [hlen] at e0
  simp only [sendV, bind, Except.bind, e0]
  rw [fillV_eq hfmt, e1]
  exact e2

/-- an empty format stops at an assertion -/
theorem send_v_empty (fuel : Nat) (M : Mem) (st p hash ts : Nat) (as : List Arg) :
    sendV fuel M st p hash ts [] as = .error .assertFail := rfl

/-- **C83 (counterexample)** a letter that is not `b f h s` sends whatever happened to be on the stack: here the
element `v` (not a symbol) that an earlier call left there. -/
theorem send_v_unknown_letter (fuel : Nat) (M : Mem) (st p hash ts : Nat) (hash32 : hash < 2^32) (ts32 : ts < 2^32)
    (c : Byte) (hc : c ≠ chB ∧ c ≠ chF ∧ c ≠ chH ∧ c ≠ chS) (v : Val) (hv : ∀ s, v ≠ .sym s) (hj : ElemIs M (st + 8) v)
    (hd : st + 24 ≤ p ∨ p + 32 ≤ st) (h64 : p + 32 ≤ 2^64) :
    ∃ M', sendV fuel M st p hash ts [c] [] = .ok (M', 32) ∧ Record M' p hash ts [v] := by
  obtain ⟨M0, e0, hB⟩ := init_spec (M := M) (m := st) (n := 1) (t := ts) (by omega) (by omega) ts32
  have hz := getSize_init (by omega) e0 (by omega)
  have hkeep : ∀ b, M (st + 8 + b) = M0 (st + 8 + b) := by
    intro b
    unfold init at e0
    rw [coreSize_ok (by omega)] at e0
    cases e0
    rw [wr_out (by omega), wr_out (by omega), wr_out (by omega)]
  have hm : IsMsg M0 st ts [v] := by
    refine ⟨hB.ts, hB.num, fun i hi => ?_⟩
    have : i = 0 := by simp at hi; omega
    subst this
    exact hj.congr (fun b _ => hkeep b) fun s hs => absurd hs (hv s)
  have hn : needed [v] = 24 := by
    cases v <;> simp_all [needed, symBytes]
  obtain ⟨M', f1, f2, -⟩ := (send_message fuel M0 p hash ts st ts [v] hm (by simp)
    (by intro s hs; simp at hs; exact absurd hs.symm (hv s)) hash32 ts32
    ⟨by rw [hz]; exact hd, by
      intro i hi s hs
      have : i = 0 := by simp at hi; omega
      subst this
      exact absurd hs (hv s)⟩ (by rw [hz]; omega)).1 (by omega)
  refine ⟨M', ?_, f2⟩
  simp only [sendV, List.length_cons, List.length_nil, Nat.zero_add, bind, Except.bind, e0, fillV, hc.1, hc.2.1, hc.2.2.1,
    hc.2.2.2, if_false]
  rw [f1, hz]

/-! ## Pure Data -/

/-- **specification**: the atoms with these values (texts read at their addresses) -/
inductive AtomsAre (M : Mem) : List Atom → List (Put × Val) → Prop
  | nil : AtomsAre M [] []
  | float {as ps} (f : BitVec 32) : AtomsAre M as ps → AtomsAre M (.float f :: as) ((.float f, .float f) :: ps)
  | sym {as ps} (q : Nat) (s : List Byte) : IsStr M q s → AtomsAre M as ps →
      AtomsAre M (.sym q :: as) ((.sym q, .sym s) :: ps)

theorem AtomsAre.length {M : Mem} {as : List Atom} {ps : List (Put × Val)} (h : AtomsAre M as ps) :
    ps.length = as.length := by
  induction h <;> simp_all

theorem fillPd_eq {fuel : Nat} {M0 : Mem} {m : Nat} {as : List Atom} {ps : List (Put × Val)} (h : AtomsAre M0 as ps) :
    ∀ (M : Mem) (i : Nat), fillPd fuel M m i as = (do .ok (some (← fill fuel M m i (ps.map (·.1))))) := by
  induction h with
  | nil => intro M i; rfl
  | float f h ih =>
    intro M i
    simp only [fillPd, List.map_cons, fill, put, bind_assoc]
    exact bind_congr fun M1 => ih M1 (i + 1)
  | sym q s hq h ih =>
    intro M i
    simp only [fillPd, List.map_cons, fill, put, bind_assoc]
    exact bind_congr fun M1 => ih M1 (i + 1)

/-- what the message of these atoms is: the atoms, or a bang when there are none -/
def pdMessage (ps : List (Put × Val)) : List (Put × Val) := if ps = [] then [(.bang, .bang)] else ps

theorem strHash_ok {fuel : Nat} {M : Mem} {q : Nat} {s : List Byte} (h0 : 0 < q) (hs : IsStr M q s) (hf : s.length < fuel) :
    strHash fuel M q = .ok (Hash.cHash true false s) := by
  unfold strHash
  rw [if_neg (by omega)]
  simp only [bind, Except.bind]
  rw [strlenR_ok hs hf]
  simp [hs.chars]

/-- **C83 (Pure Data to the patch)** a message with selector `name` and float and symbol arguments is put into the queue
for the receiver named `name` as exactly those arguments; without arguments, as a bang. -/
theorem on_message (fuel : Nat) (M : Mem) (st p ts sel : Nat) (name : List Byte) (as : List Atom) (ps : List (Put × Val))
    (ts32 : ts < 2^32) (has : AtomsAre M as ps) (hpl : Places fuel M st p (pdMessage ps))
    (hsel : PutIs fuel M st (st + (8 + 16 * (pdMessage ps).length)) (.sym sel) (.sym name)) :
    ∃ M', onMessage fuel M st p ts sel as = .ok (some (M', 8 + needed ((pdMessage ps).map (·.2)))) ∧
      Record M' p (Hash.cHash true false name).toNat ts ((pdMessage ps).map (·.2)) := by
  have hlen := has.length
  have hne : 0 < (pdMessage ps).length := by
    unfold pdMessage
    split
    · simp
    · exact List.length_pos_iff.2 ‹_›
  obtain ⟨M0, M1, M', e0, e1, e2, e3, e4, -⟩ := fill_send (hash := (Hash.cHash true false name).toNat) (t := 0)
    (Hash.cHash true false name).isLt ts32 (by omega) hne hpl
  refine ⟨M', ?_, e3⟩
  have hs1 : strHash fuel M1 sel = .ok (Hash.cHash true false name) := by
    have := hsel.congr fun x hx => (e4 x hx).symm
    simp only [PutIs] at this
    exact strHash_ok this.1 this.2.2.1 this.2.2.2.2
  have key : convertPd fuel M st as = .ok (some M1) := by
    unfold convertPd
    by_cases hps : ps = []
    · subst hps
      simp only [List.length_nil] at hlen
      rw [if_neg (by omega)]
      simp only [pdMessage, if_true, List.length_cons, List.length_nil, Nat.zero_add, List.map_cons, List.map_nil, fill,
        put, bind, Except.bind] at e0 e1
      simp only [bind, Except.bind, e0]
      cases hb : setBang M0 st 0 with
      | error e =>
        have e1' := e1
        simp only [Int.cast_ofNat_Int, hb] at e1'
        exact absurd e1' (by simp)
      | ok N =>
        have e1' := e1
        simp only [Int.cast_ofNat_Int, hb] at e1'
        simpa using e1'
    · have hpos := List.length_pos_iff.2 hps
      simp only [pdMessage, hps, if_false] at e0 e1
      rw [if_pos (by omega), ← hlen, e0]
      simp only [bind, Except.bind]
      rw [fillPd_eq has, e1]
      rfl
  unfold onMessage
  rw [key]
  simp only [bind, Except.bind, hs1, e2]

/-- **C83** a message with an argument that is neither a float nor a symbol is not sent at all -/
theorem on_message_other (fuel : Nat) (M : Mem) (st p ts sel : Nat) (as bs : List Atom) (ps : List (Put × Val))
    (has : AtomsAre M as ps)
    (hps : ∀ q ∈ ps, PutIs fuel M st (st + (8 + 16 * (as ++ .other :: bs).length)) q.1 q.2)
    (hfit : 8 + 16 * (as ++ .other :: bs).length + (ps.map fun q => symBytes q.2).sum < 2^16) :
    onMessage fuel M st p ts sel (as ++ .other :: bs) = .ok none := by
  have hlen := has.length
  have hpos : 0 < (as ++ .other :: bs).length := by simp; omega
  obtain ⟨M0, e0, hB⟩ := init_spec (M := M) (m := st) (t := 0) hpos (by omega) (by omega)
  have hz := getSize_init hpos e0 (by omega)
  obtain ⟨M1, f1, -⟩ := fill_spec (fuel := fuel) (m := st) ps (M := M0) (i := 0) hB.num
    (by simp only [List.length_append]; omega)
    (fun q hq => (hps q hq).congr fun x hx => (hB.out x hx).symm) (by omega)
  have key : ∀ (as : List Atom) (ps : List (Put × Val)), AtomsAre M as ps → ∀ (N : Mem) (i : Nat) (N' : Mem),
      fill fuel N st i (ps.map (·.1)) = .ok N' → fillPd fuel N st i (as ++ .other :: bs) = .ok none := by
    intro as ps h
    induction h with
    | nil => intro N i N' _; rfl
    | float f h ih =>
      intro N i N' hN
      simp only [List.map_cons, fill, put, bind, Except.bind] at hN
      simp only [List.cons_append, fillPd, bind, Except.bind]
      cases hb : setFloat N st i f with
      | error e => rw [hb] at hN; cases hN
      | ok N1 => rw [hb] at hN; exact ih N1 (i + 1) N' hN
    | sym q s hq h ih =>
      intro N i N' hN
      simp only [List.map_cons, fill, put, bind, Except.bind] at hN
      simp only [List.cons_append, fillPd, bind, Except.bind]
      cases hb : setSymbol fuel N st i q with
      | error e => rw [hb] at hN; cases hN
      | ok N1 => rw [hb] at hN; exact ih N1 (i + 1) N' hN
  have := key as ps has M0 0 M1 f1
  unfold onMessage convertPd
  rw [if_pos hpos, e0]
  simp only [bind, Except.bind]
  rw [this]

/-- **specification** what Pure Data gets for a message with these elements: one element is a float, a bang or a
symbol; several are a list if all are floats and symbols; everything else (a hash, a bang in a list) is nothing -/
def asAtom : Val → Option PdAtom
  | .float f => some (.float f)
  | .sym s => some (.sym s)
  | _ => none

def toPd1 : Val → Option PdOut
  | .float f => some (.float f)
  | .bang => some .bang
  | .sym s => some (.sym s)
  | .hash _ => none

def toPd : List Val → Option PdOut
  | [v] => toPd1 v
  | vs => (vs.mapM asAtom).map .list

theorem toPd_many (v w : Val) (vs : List Val) : toPd (v :: w :: vs) = ((v :: w :: vs).mapM asAtom).map .list := rfl

theorem gensym_ok {fuel : Nat} {M : Mem} {m t : Nat} {vs : List Val} (hm : IsMsg M m t vs) {i : Nat} (hi : i < vs.length)
    {s : List Byte} (hs : vs[i] = .sym s) (hf : s.length < fuel) : gensym fuel M m (i : Int) = .ok s := by
  have he := hm.elem i hi
  rw [hs] at he
  simp only [ElemIs] at he
  unfold gensym
  rw [getSymbol_ok (by rw [hm.num]; exact hi)]
  simp only [bind, Except.bind]
  rw [strlenR_ok he.2.2 hf]
  simp [he.2.2.chars]

theorem getFloat_ok {M : Mem} {m t : Nat} {vs : List Val} (hm : IsMsg M m t vs) {i : Nat} (hi : i < vs.length)
    {f : BitVec 32} (hs : vs[i] = .float f) : getFloat M m (i : Int) = .ok f := by
  have he := hm.elem i hi
  rw [hs] at he
  simp only [ElemIs] at he
  unfold getFloat
  rw [elemAddr_ok (by rw [hm.num]; exact hi)]
  simp only [bind, Except.bind, he.2]
  simp

theorem type_ok {M : Mem} {m t : Nat} {vs : List Val} (hm : IsMsg M m t vs) {i : Nat} (hi : i < vs.length) (ty : Nat) :
    isType ty M m (i : Int) = .ok (Msg.tag vs[i] == ty) := by
  rw [isType_ok (by rw [hm.num]; exact hi), (hm.elem i hi).tag]

theorem hookLoop_ok {fuel : Nat} {M : Mem} {m t : Nat} {vs : List Val} (hm : IsMsg M m t vs)
    (hf : ∀ s, Val.sym s ∈ vs → s.length < fuel) : ∀ k i, i + k = vs.length →
    hookLoop fuel M m i k = .ok ((vs.drop i).mapM asAtom) := by
  intro k
  induction k with
  | zero =>
    intro i hi
    rw [List.drop_eq_nil_of_le (by omega)]
    rfl
  | succ k ih =>
    intro i hi
    have hlt : i < vs.length := by omega
    rw [List.drop_eq_getElem_cons hlt]
    simp only [hookLoop, bind, Except.bind, type_ok hm hlt, List.mapM_cons, Option.bind_eq_bind, Option.pure_def]
    cases hv : vs[i] with
    | float f =>
      simp only [Msg.tag, tFloat, beq_self_eq_true, if_true]
      rw [getFloat_ok hm hlt hv, ih (i + 1) (by omega)]
      simp only [asAtom]
      cases (vs.drop (i + 1)).mapM asAtom <;> rfl
    | sym s =>
      rw [show (Msg.tag (.sym s) == tFloat) = false from rfl, show (Msg.tag (.sym s) == tSymbol) = true from rfl]
      simp only [Bool.false_eq_true, if_false, if_true]
      rw [gensym_ok hm hlt hv (hf s (hv ▸ List.getElem_mem hlt)), ih (i + 1) (by omega)]
      simp only [asAtom]
      cases (vs.drop (i + 1)).mapM asAtom <;> rfl
    | bang => rfl
    | hash h => rfl

/-- **C83 (the patch to Pure Data)** for every message to `HV_TO_PD`, Pure Data gets exactly what the specification
says. -/
theorem send_hook (fuel : Nat) (M : Mem) (m t : Nat) (vs : List Val) (hm : IsMsg M m t vs)
    (hf : ∀ s, Val.sym s ∈ vs → s.length < fuel) : sendHook fuel M m = .ok (toPd vs) := by
  unfold sendHook
  rw [hm.num]
  have loop := hookLoop_ok hm hf vs.length 0 (by omega)
  rw [List.drop_zero] at loop
  match vs, hm, hf, loop with
  | [], hm, hf, loop =>
    rw [if_neg (by simp), loop]
    rfl
  | [v], hm, hf, loop =>
    have ty := fun ty => type_ok hm (i := 0) (by simp) ty
    simp only [List.getElem_cons_zero, Int.cast_ofNat_Int] at ty
    rw [if_pos (by simp)]
    simp only [bind, Except.bind, ty]
    cases v with
    | float f =>
      have := getFloat_ok hm (i := 0) (f := f) (by simp) rfl
      simp only [Int.cast_ofNat_Int] at this
      rw [show (Msg.tag (.float f) == tFloat) = true from rfl, this]
      rfl
    | bang => rfl
    | hash h => rfl
    | sym s =>
      have := gensym_ok (fuel := fuel) hm (i := 0) (s := s) (by simp) rfl (hf s (by simp))
      simp only [Int.cast_ofNat_Int] at this
      rw [show (Msg.tag (.sym s) == tFloat) = false from rfl, show (Msg.tag (.sym s) == tBang) = false from rfl,
        show (Msg.tag (.sym s) == tSymbol) = true from rfl, this]
      rfl
  | v :: w :: vs, hm, hf, loop =>
    rw [if_neg (by simp), loop, toPd_many]
    rfl

/-- what Pure Data itself would put out for these atoms: a lone float or symbol as such, nothing as a bang -/
def pdEcho : List PdAtom → PdOut
  | [] => .bang
  | [.float f] => .float f
  | [.sym s] => .sym s
  | l => .list l

def atomVal : PdAtom → Val
  | .float f => .float f
  | .sym s => .sym s

theorem mapM_atoms (l : List PdAtom) : (l.map atomVal).mapM asAtom = some l := by
  induction l with
  | nil => rfl
  | cons a l ih => cases a <;> simp [atomVal, asAtom, ih]

/-- **C83 (round trip)** whatever floats and symbols come in from Pure Data, a patch that sends the message it receives
back to `HV_TO_PD` gives Pure Data the same atoms. -/
theorem echo (l : List PdAtom) : toPd (if l = [] then [.bang] else l.map atomVal) = some (pdEcho l) := by
  match l with
  | [] => rfl
  | [a] => cases a <;> rfl
  | a :: b :: l =>
    rw [if_neg (by simp)]
    have := mapM_atoms (a :: b :: l)
    simp only [List.map_cons] at this ⊢
    rw [toPd_many, this]
    cases a <;> cases b <;> rfl

/-! ## Out of the queues -/

/-- **C83 (`process`)** a record in the in queue is large enough for the assertion of `process`, and scheduling it
copies exactly its elements and time into the message pool. -/
theorem delivered (fuel : Nat) (M : Mem) (p hash ts b : Nat) (vs : List Val) (h : Record M p hash ts vs)
    (hpos : 0 < vs.length) (hf : ∀ s, Val.sym s ∈ vs → s.length < fuel)
    (hd : p + 8 + needed vs ≤ b ∨ b + needed vs ≤ p + 8) (h64 : b + needed vs ≤ 2^64) :
    32 ≤ 8 + needed vs ∧ ∃ M', copy fuel M (p + 8) b = .ok M' ∧ IsMsg M' b ts vs ∧
      SelfContained M' b (needed vs) vs ∧ getSize M' b = needed vs := by
  refine ⟨by have := needed_core vs; omega, ?_⟩
  exact copy_of_copy fuel M (p + 8) b ts vs h.msg hpos h.own h.size hf hd h64

/-- **C83 (`getNextSentMessage`)** gives the destination and the message of the oldest record, if the caller's memory
has 8 bytes more than the record's message and is apart from the record. -/
theorem next_sent (M : Mem) (p hash t out size len : Nat) (vs : List Val) (h : Record M p hash t vs)
    (hpos : 0 < vs.length) (hsize : needed vs ≤ size) (hlen : 8 + size ≤ len)
    (hd : out + len ≤ p ∨ p + 8 + needed vs ≤ out) :
    ∃ M', getNextSent M p (8 + size) out len = .ok (M', hash) ∧ IsMsg M' out t vs ∧
      ∀ x, x < out ∨ out + (8 + size) ≤ x → M' x = M x := by
  have hcore := needed_core vs
  refine ⟨memcpy M out (p + 8) (8 + size), ?_, ⟨?_, ?_, fun i hi => ?_⟩, fun x hx => memcpy_out hx⟩
  · unfold getNextSent
    rw [assert_true (by simp; omega), assert_true (by simpa using hlen), h.hash]
    rfl
  · rw [← h.msg.ts]
    exact rd_shift fun c hc => memcpy_in (by omega)
  · rw [← h.msg.num]
    exact rd_shift fun c hc => by
      rw [show out + 4 + c = out + (4 + c) by omega, memcpy_in (by omega)]
      congr 1
      omega
  · have hby : ∀ c, c < 16 → memcpy M out (p + 8) (8 + size) (out + 8 + 16 * i + c) = M (p + 8 + 8 + 16 * i + c) := by
      intro c hc
      rw [show out + 8 + 16 * i + c = out + (8 + 16 * i + c) by omega, memcpy_in (by omega)]
      congr 1
      omega
    have he := h.msg.elem i hi
    have h4 : rd (memcpy M out (p + 8) (8 + size)) (out + 8 + 16 * i) 4 = rd M (p + 8 + 8 + 16 * i) 4 :=
      rd_shift fun c hc => hby c (by omega)
    have h8 : ∀ k ≤ 8, rd (memcpy M out (p + 8) (8 + size)) (out + 8 + 16 * i + 8) k = rd M (p + 8 + 8 + 16 * i + 8) k := by
      intro k hk
      exact rd_shift fun c hc => by
        have := hby (8 + c) (by omega)
        rwa [show out + 8 + 16 * i + (8 + c) = out + 8 + 16 * i + 8 + c by omega,
          show p + 8 + 8 + 16 * i + (8 + c) = p + 8 + 8 + 16 * i + 8 + c by omega] at this
    have ho := h.own i hi
    cases hv : vs[i] with
    | bang => rw [hv] at he; simp only [ElemIs] at *; rw [h4]; exact he
    | float f => rw [hv] at he; simp only [ElemIs] at *; rw [h4, h8 4 (by omega)]; exact he
    | hash f => rw [hv] at he; simp only [ElemIs] at *; rw [h4, h8 4 (by omega)]; exact he
    | sym s =>
      rw [hv] at he
      simp only [ElemIs] at *
      rw [h4, h8 8 (by omega)]
      refine ⟨he.1, he.2.1, he.2.2.congr fun x g1 g2 => ?_⟩
      have := ho s hv
      exact (memcpy_out (by omega)).symm

/-- **C83 (counterexample)** memory that is large enough for the message, but not 8 bytes larger, is refused at an
assertion. -/
theorem next_sent_refuses (M : Mem) (p out size len : Nat) (h : len < 8 + size) :
    getNextSent M p (8 + size) out len = .error .assertFail := by
  unfold getNextSent
  by_cases h32 : 32 ≤ 8 + size
  · rw [assert_true (by simpa using h32), assert_false (by simp; omega)]
    rfl
  · rw [assert_false (by simp; omega)]
    rfl

/-- **C83 (counterexample)** the 8 bytes more are not part of the record: they are the bytes behind it in the queue
(the header of the next record, or memory behind the queue). -/
theorem next_sent_reads_behind (M M' : Mem) (p out size len hash : Nat)
    (h : getNextSent M p (8 + size) out len = .ok (M', hash)) :
    ∀ k < 8, M' (out + size + k) = M (p + 8 + size + k) := by
  unfold getNextSent at h
  intro k hk
  by_cases h1 : 32 ≤ 8 + size <;> by_cases h2 : 8 + size ≤ len
  · rw [assert_true (by simpa using h1), assert_true (by simpa using h2)] at h
    cases h
    rw [show out + size + k = out + (size + k) by omega, memcpy_in (by omega)]
    congr 1
    omega
  · rw [assert_true (by simpa using h1), assert_false (by simp; omega)] at h
    cases h
  · rw [assert_false (by simp; omega)] at h
    cases h
  · rw [assert_false (by simp; omega)] at h
    cases h

/-- **C83 (counterexample)** the symbols of the message given to the caller still point into the record, which the
queue is free to overwrite after the call: for every message with a symbol that is not empty there is a later memory,
changed only inside the record, in which the caller's message is another one. -/
theorem next_sent_dangles (M : Mem) (p hash t out size len : Nat) (vs : List Val) (h : Record M p hash t vs)
    (hsize : needed vs ≤ size) (hlen : 8 + size ≤ len) (hd : out + len ≤ p ∨ p + 8 + needed vs ≤ out)
    (i : Nat) (hi : i < vs.length) (s : List Byte) (hs : vs[i] = .sym s) (hne : s ≠ []) (M' : Mem)
    (hM : getNextSent M p (8 + size) out len = .ok (M', hash)) :
    ∃ N : Mem, (∀ x, x < p ∨ p + 8 + needed vs ≤ x → N x = M' x) ∧ ¬ IsMsg N out t vs := by
  obtain ⟨M2, e1, e2, -⟩ := next_sent M p hash t out size len vs h (by omega) hsize hlen hd
  rw [hM] at e1
  cases e1
  have hcore := needed_core vs
  have hptr : rd M' (out + 8 + 16 * i + 8) 8 = rd M (p + 8 + 8 + 16 * i + 8) 8 := by
    unfold getNextSent at hM
    rw [assert_true (by simp; omega), assert_true (by simpa using hlen)] at hM
    cases hM
    exact rd_shift fun c hc => by
      rw [show out + 8 + 16 * i + 8 + c = out + (8 + 16 * i + 8 + c) by omega, memcpy_in (by omega)]
      congr 1
      omega
  have ho := h.own i hi s hs
  refine ⟨wr M' (rd M (p + 8 + 8 + 16 * i + 8) 8) 1 0, fun x hx => wr_out (by omega), fun hN => ?_⟩
  have he := hN.elem i hi
  rw [hs] at he
  simp only [ElemIs] at he
  have h8 : rd (wr M' (rd M (p + 8 + 8 + 16 * i + 8) 8) 1 0) (out + 8 + 16 * i + 8) 8 = rd M (p + 8 + 8 + 16 * i + 8) 8 := by
    rw [rd_wr_out (by omega), hptr]
  rw [h8] at he
  obtain ⟨c, r, rfl⟩ := List.exists_cons_of_ne_nil hne
  have h1 := he.2.2
  simp only [IsStr] at h1
  have h2 : wr M' (rd M (p + 8 + 8 + 16 * i + 8) 8) 1 0 (rd M (p + 8 + 8 + 16 * i + 8) 8) = 0 := by
    simp [wr]
  exact h1.2.1 (h1.1 ▸ h2)

/-- **C83 (web page)** the page gets the first number of a message … -/
theorem web_hook (M : Mem) (m t : Nat) (f : BitVec 32) (vs : List Val) (hm : IsMsg M m t (.float f :: vs)) :
    webHook M m = .ok f := by
  have := getFloat_ok hm (i := 0) (f := f) (by simp) rfl
  simpa [webHook] using this

/-- … and **(counterexample)** nothing of the rest: messages that differ only after it look the same. -/
theorem web_hook_loses (M N : Mem) (m n t u : Nat) (f : BitVec 32) (vs ws : List Val)
    (hm : IsMsg M m t (.float f :: vs)) (hn : IsMsg N n u (.float f :: ws)) : webHook M m = webHook N n := by
  rw [web_hook M m t f vs hm, web_hook N n u f ws hn]

/-! ## Example -/

/-- `"hi"` at 1000 and `"go"` at 2000 -/
def exHost : Mem := fun x =>
  if x = 1000 then 104 else if x = 1001 then 105 else if x = 2000 then 103 else if x = 2001 then 111 else 0

/-- the Pure Data message `go 1 hi`: the record holds `[1, "hi"]` for the receiver `go` -/
theorem pd_example : ∃ M', onMessage 10 exHost 5000 8000 64 2000 [.float 0x3F800000#32, .sym 1000] = .ok (some (M', 51)) ∧
    Record M' 8000 (Hash.cHash true false [103, 111]).toNat 64 [.float 0x3F800000#32, .sym [104, 105]] := by
  have h1 : IsStr exHost 1000 [104, 105] := by simp [IsStr, exHost]
  have h2 : IsStr exHost 2000 [103, 111] := by simp [IsStr, exHost]
  have := on_message 10 exHost 5000 8000 64 2000 [103, 111] [.float 0x3F800000#32, .sym 1000]
    [(.float 0x3F800000#32, .float 0x3F800000#32), (.sym 1000, .sym [104, 105])] (by omega)
    (.float _ (.sym _ _ h1 .nil))
    ⟨by simp [pdMessage, needed, symBytes], by simp [pdMessage, PutIs]; exact h1, by simp [pdMessage, PutIs]; exact h1,
      by simp [pdMessage, needed, symBytes], by simp [pdMessage, needed, symBytes]⟩
    (by simp [PutIs, pdMessage]; exact h2)
  simpa [pdMessage, needed, symBytes] using this

/-- the same message sent on to `HV_TO_PD` -/
theorem pd_example_back (M' : Mem) (ts : Nat) (h : IsMsg M' 9000 ts [.float 0x3F800000#32, .sym [104, 105]]) :
    sendHook 10 M' 9000 = .ok (some (.list [.float 0x3F800000#32, .sym [104, 105]])) := by
  rw [send_hook 10 M' 9000 ts _ h (by simp)]
  rfl

/-- a list with a bang in it is dropped -/
theorem pd_drops_bang (fuel : Nat) (M : Mem) (m t : Nat) (h : IsMsg M m t [.float 0#32, .bang]) :
    sendHook fuel M m = .ok none := by
  rw [send_hook fuel M m t _ h (by simp)]
  rfl

end Verif.HostMsg
