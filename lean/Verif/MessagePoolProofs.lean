import Verif.MessagePool
import Verif.Props.Message
import Mathlib.Tactic.IntervalCases
/-!
Proofs about the message pool model.
-/
namespace Verif.Pool
open Mem Msg

/-- the chunk class of a byte size -/
def cls (win : Bool) (b : Nat) : Nat := (if win then Nat.log2 b + 1 else Nat.log2 (b - 1) + 1) - 5

theorem listIndex_eq {win : Bool} {b : Nat} (h : 2 ≤ b) : listIndex win b = .ok (cls win b) := by
  unfold listIndex minMaxLog2 cls
  cases win
  · simp only [Bool.false_eq_true, if_false]; rw [if_neg (by omega)]; rfl
  · simp only [if_true]; rw [if_neg (by omega)]; rfl

theorem cls_fit (win : Bool) (b : Nat) (h : 2 ≤ b) : b ≤ 32 <<< cls win b := by
  rw [Nat.shiftLeft_eq]
  have key : ∀ x, Nat.log2 x < 5 + (Nat.log2 x + 1 - 5) := fun x => by omega
  unfold cls
  cases win
  · simp only [Bool.false_eq_true, if_false]
    have h1 : b - 1 < 2 ^ (Nat.log2 (b - 1) + 1) := Nat.lt_log2_self
    have h2 : 2 ^ (Nat.log2 (b - 1) + 1) ≤ 2 ^ (5 + (Nat.log2 (b - 1) + 1 - 5)) :=
      Nat.pow_le_pow_right (by omega) (by omega)
    have h3 : 2 ^ (5 + (Nat.log2 (b - 1) + 1 - 5)) = 32 * 2 ^ (Nat.log2 (b - 1) + 1 - 5) := by rw [Nat.pow_add]
    omega
  · simp only [if_true]
    have h1 : b < 2 ^ (Nat.log2 b + 1) := Nat.lt_log2_self
    have h2 : 2 ^ (Nat.log2 b + 1) ≤ 2 ^ (5 + (Nat.log2 b + 1 - 5)) := Nat.pow_le_pow_right (by omega) (by omega)
    have h3 : 2 ^ (5 + (Nat.log2 b + 1 - 5)) = 32 * 2 ^ (Nat.log2 b + 1 - 5) := by rw [Nat.pow_add]
    omega

theorem log2_mono {a b : Nat} (h : a ≤ b) : Nat.log2 a ≤ Nat.log2 b := by
  by_cases ha : a = 0
  · subst ha; simp
  · rw [Nat.le_log2 (by omega)]
    exact Nat.le_trans (Nat.log2_self_le ha) h

theorem cls_mono (win : Bool) {a b : Nat} (h : a ≤ b) : cls win a ≤ cls win b := by
  unfold cls
  cases win
  · simp only [Bool.false_eq_true, if_false]
    have := log2_mono (show a - 1 ≤ b - 1 by omega)
    omega
  · simp only [if_true]
    have := log2_mono h
    omega

/-- with the `clz` variant, everything that fits into a chunk is of its class or a smaller one -/
theorem cls_le_of_fit {b i : Nat} (h : 2 ≤ b) (hf : b ≤ 32 <<< i) : cls false b ≤ i := by
  unfold cls
  simp only [Bool.false_eq_true, if_false]
  rw [Nat.shiftLeft_eq] at hf
  have : Nat.log2 (b - 1) < 5 + i := by
    rw [Nat.log2_lt (by omega), Nat.pow_add]
    omega
  omega

theorem chunk_mono {i j : Nat} (h : i ≤ j) : 32 <<< i ≤ 32 <<< j := by
  simp only [Nat.shiftLeft_eq]
  exact Nat.mul_le_mul_left _ (Nat.pow_le_pow_right (by omega) h)

theorem chunk_div {i : Nat} (h : i < 4) : 512 / (32 <<< i) * (32 <<< i) = 512 := by
  interval_cases i <;> rfl

theorem chunk_pos (i : Nat) : 0 < 32 <<< i := by
  rw [Nat.shiftLeft_eq]; exact Nat.mul_pos (by omega) (Nat.two_pow_pos i)

/-- a live message: address, timestamp and elements of the message that was added -/
structure Live where
  a : Nat
  t : Nat
  vs : List Val

/-- regions (address, length) -/
abbrev Reg := Nat × Nat

def Dj (r s : Reg) : Prop := r.1 + r.2 ≤ s.1 ∨ s.1 + s.2 ≤ r.1

theorem Dj.symm {r s : Reg} (h : Dj r s) : Dj s r := h.elim .inr .inl

def listRegs (P : Pool) (i : Nat) : List Reg := (P.lists i).map fun a => (a, 32 <<< i)

def freeRegs (P : Pool) : List Reg := (List.range 4).flatMap (listRegs P)

def liveReg (win : Bool) (l : Live) : Reg := (l.a, 32 <<< cls win (needed l.vs))

/-- all regions: live messages and free chunks -/
def regs (win : Bool) (P : Pool) (L : List Live) : List Reg := L.map (liveReg win) ++ freeRegs P

theorem listRegs_setList_same (P : Pool) (i : Nat) (l : List Nat) :
    listRegs (P.setList i l) i = l.map fun a => (a, 32 <<< i) := by simp [listRegs, Pool.setList]

theorem listRegs_setList_ne (P : Pool) {i j : Nat} (l : List Nat) (h : j ≠ i) :
    listRegs (P.setList i l) j = listRegs P j := by simp [listRegs, Pool.setList, h]

def others (P : Pool) (i : Nat) : List Reg := ((List.range 4).erase i).flatMap (listRegs P)

theorem freeRegs_perm (P : Pool) {i : Nat} (h : i < 4) : (freeRegs P).Perm (listRegs P i ++ others P i) := by
  have : (List.range 4).Perm (i :: (List.range 4).erase i) := List.perm_cons_erase (by simpa using h)
  exact (this.flatMap_right _)

theorem others_setList (P : Pool) (i : Nat) (l : List Nat) : others (P.setList i l) i = others P i := by
  unfold others
  have : ∀ (xs : List Nat), i ∉ xs → xs.flatMap (listRegs (P.setList i l)) = xs.flatMap (listRegs P) := by
    intro xs
    induction xs with
    | nil => simp
    | cons x xs ih =>
      intro h
      simp only [List.mem_cons, not_or] at h
      simp only [List.flatMap_cons, ih h.2, listRegs_setList_ne P l (Ne.symm h.1)]
  exact this _ (List.nodup_range.not_mem_erase)

theorem freeRegs_setList (P : Pool) {i : Nat} (h : i < 4) (l : List Nat) :
    (freeRegs (P.setList i l)).Perm ((l.map fun a => (a, 32 <<< i)) ++ others P i) := by
  have := freeRegs_perm (P.setList i l) h
  rwa [listRegs_setList_same, others_setList] at this

theorem freeRegs_congr {P Q : Pool} (h : P.lists = Q.lists) : freeRegs P = freeRegs Q := by
  have : listRegs P = listRegs Q := by funext i; simp [listRegs, h]
  rw [freeRegs, freeRegs, this]

theorem pushChunks_perm (b c : Nat) : ∀ k j l, (pushChunks b c k j l).Perm ((List.range k).map (fun q => b + j + c * q) ++ l) := by
  intro k
  induction k with
  | zero => intro j l; exact List.Perm.refl _
  | succ k ih =>
    intro j l
    unfold pushChunks
    refine (ih (j + c) ((b + j) :: l)).trans ?_
    rw [List.range_succ_eq_map]
    simp only [List.map_cons, List.map_map, Nat.mul_zero, Nat.add_zero, List.cons_append]
    have : (fun q => b + (j + c) + c * q) = ((fun q => b + j + c * q) ∘ Nat.succ) := by
      funext q
      simp only [Function.comp, Nat.succ_eq_add_one, Nat.mul_add]
      omega
    rw [this]
    exact List.perm_middle

/-- a message whose bytes do not change stays the same message -/
theorem frame {M N : Mem} {a t : Nat} {vs : List Val} (hm : IsMsg M a t vs) (hpos : 0 < vs.length)
    (hsc : SelfContained M a (needed vs) vs)
    (hz : getSize M a = needed vs) (h : ∀ x, a ≤ x → x < a + needed vs → N x = M x) :
    IsMsg N a t vs ∧ SelfContained N a (needed vs) vs ∧ getSize N a = needed vs := by
  have hn : 8 + 16 * vs.length ≤ needed vs := by unfold needed; omega
  have hptr : ∀ i, i < vs.length → rd N (a + 8 + 16 * i + 8) 8 = rd M (a + 8 + 16 * i + 8) 8 := fun i hi =>
    rd_congr fun x h1 h2 => h x (by omega) (by omega)
  refine ⟨⟨?_, ?_, ?_⟩, ?_, ?_⟩
  · rw [← hm.ts]; exact rd_congr fun x h1 h2 => h x (by omega) (by omega)
  · rw [← hm.num]; exact rd_congr fun x h1 h2 => h x (by omega) (by omega)
  · intro i hi
    refine (hm.elem i hi).congr (fun b hb => (h _ (by omega) (by omega)).symm) ?_
    intro s hs x h1 h2
    have := hsc i hi s hs
    exact (h x (by omega) (by omega)).symm
  · intro i hi s hs
    rw [hptr i hi]
    exact hsc i hi s hs
  · rw [← hz]; exact rd_congr fun x h1 h2 => h x (by omega) (by omega)

/-- a live message is intact -/
structure Intact (win : Bool) (M : Mem) (l : Live) : Prop where
  msg : IsMsg M l.a l.t l.vs
  self : SelfContained M l.a (needed l.vs) l.vs
  size : getSize M l.a = needed l.vs
  pos : 0 < l.vs.length
  small : cls win (needed l.vs) < 4

theorem needed_ge {vs : List Val} (h : 0 < vs.length) : 24 ≤ needed vs := by unfold needed; omega

theorem Intact.frame {win : Bool} {M N : Mem} {l : Live} (h : Intact win M l)
    (hN : ∀ x, l.a ≤ x → x < l.a + (liveReg win l).2 → N x = M x) : Intact win N l := by
  have hge := needed_ge h.pos
  have hfit := cls_fit win (needed l.vs) (by omega)
  obtain ⟨a, b, c⟩ := Pool.frame h.msg h.pos h.self h.size (N := N) (fun x h1 h2 => hN x h1 (by simp only [liveReg]; omega))
  exact ⟨a, b, c, h.pos, h.small⟩

structure PInv (win : Bool) (M : Mem) (P : Pool) (L : List Live) : Prop where
  idx : P.bufferIndex ≤ P.bufferSize
  inside : ∀ r ∈ regs win P L, P.buffer ≤ r.1 ∧ r.1 + r.2 ≤ P.buffer + P.bufferIndex
  disj : (regs win P L).Pairwise Dj
  live : ∀ l ∈ L, Intact win M l

theorem pairwise_perm {l₁ l₂ : List Reg} (h : l₁.Perm l₂) : l₁.Pairwise Dj ↔ l₂.Pairwise Dj :=
  h.pairwise_iff (fun h => h.symm)

theorem pinv_init (win : Bool) (M : Mem) (b kb : Nat) : PInv win M (init b kb) [] := by
  refine ⟨by simp [init], ?_, ?_, by simp⟩
  · intro r hr; simp [regs, freeRegs, listRegs, init] at hr
  · have : freeRegs (init b kb) = [] := by
      unfold freeRegs
      rw [List.flatMap_eq_nil_iff]
      intro i _
      rfl
    simp [regs, this]

/-- a range of bytes that is outside the pool buffer or inside a live message -/
def Safe (P : Pool) (L : List Live) (lo n : Nat) : Prop :=
  (lo + n ≤ P.buffer ∨ P.buffer + P.bufferSize ≤ lo) ∨ ∃ l ∈ L, l.a ≤ lo ∧ lo + n ≤ l.a + needed l.vs

/-- a proper source message for `mp_addMessage`: a message somewhere (on the stack, in the pool, …) with its
text somewhere, not using memory the pool considers free.  (On Windows also: its declared size is not too small.) -/
structure SrcOk (win : Bool) (fuel : Nat) (M : Mem) (P : Pool) (L : List Live) (m t : Nat) (vs : List Val) : Prop where
  msg : IsMsg M m t vs
  pos : 0 < vs.length
  core : Safe P L m (8 + 16 * vs.length)
  strs : ∀ i (h : i < vs.length) s, vs[i] = .sym s →
    Safe P L (rd M (m + 8 + 16 * i + 8) 8) (s.length + 1) ∧ s.length < fuel
  decl : win = true → needed vs ≤ getSize M m
  decl2 : 2 ≤ getSize M m

theorem regs_perm_pop {win : Bool} {P : Pool} {L : List Live} {i buf : Nat} {rest : List Nat} (hi : i < 4)
    (h : P.lists i = buf :: rest) :
    (regs win P L).Perm ((buf, 32 <<< i) :: regs win (P.setList i rest) L) := by
  have h1 := freeRegs_perm P hi
  have h2 := freeRegs_setList P hi rest
  rw [listRegs, h, List.map_cons, List.cons_append] at h1
  have h3 := h1.trans (h2.symm.cons (buf, 32 <<< i))
  unfold regs
  exact (h3.append_left _).trans List.perm_middle

/-- popping a chunk and copying a message into it -/
theorem popCopy_spec {win : Bool} {fuel : Nat} {M : Mem} {P : Pool} {L : List Live} (h : PInv win M P L)
    {m t : Nat} {vs : List Val} (hs : SrcOk win fuel M P L m t vs) (h64 : P.buffer + P.bufferSize ≤ 2^64)
    {i : Nat} (hi : i < 4) (hcls : cls win (getSize M m) = i) {buf : Nat} {rest : List Nat} (hl : P.lists i = buf :: rest) :
    (needed vs ≤ 32 <<< i → ∃ M', popCopy fuel M P m i (32 <<< i) = .ok (M', P.setList i rest, buf) ∧
      PInv win M' (P.setList i rest) (⟨buf, t, vs⟩ :: L) ∧
      ∀ x, x < buf ∨ buf + needed vs ≤ x → M' x = M x) ∧
    (32 <<< i < needed vs → popCopy fuel M P m i (32 <<< i) = .error .assertFail) := by
  have hge := needed_ge hs.pos
  have hperm := regs_perm_pop (win := win) (L := L) hi hl
  have hin : (buf, 32 <<< i) ∈ regs win P L := hperm.mem_iff.mpr (by simp)
  have hbuf := h.inside _ hin
  simp only at hbuf
  have hidx := h.idx
  -- the chunk is disjoint from all live messages
  have hpw := (pairwise_perm hperm).mp h.disj
  rw [List.pairwise_cons] at hpw
  have hlive : ∀ l ∈ L, Dj (buf, 32 <<< i) (liveReg win l) := fun l hl =>
    hpw.1 _ (by unfold regs; rw [List.mem_append]; exact .inl (List.mem_map_of_mem hl))
  have hsafe : ∀ lo n, Safe P L lo n → lo + n ≤ buf ∨ buf + 32 <<< i ≤ lo := by
    intro lo n hsf
    rcases hsf with hsf | ⟨l, hl1, h1, h2⟩
    · omega
    · have hd := hlive l hl1
      have hI := h.live l hl1
      have := needed_ge hI.pos
      have hf := cls_fit win (needed l.vs) (by omega)
      unfold Dj liveReg at hd
      simp only at hd
      omega
  have hsrc : Src fuel M m buf (32 <<< i) t vs := by
    refine ⟨hs.msg, hs.pos, hsafe _ _ hs.core, fun j hj s hsy => ⟨?_, (hs.strs j hj s hsy).2⟩⟩
    have := hsafe _ _ (hs.strs j hj s hsy).1
    omega
  obtain ⟨c1, c2⟩ := copyToBuffer_correct fuel M m buf (32 <<< i) t vs hsrc (by omega)
  unfold popCopy
  rw [hl]
  simp only [bind, Except.bind]
  refine ⟨fun hfit => ?_, fun hbig => by rw [c2 hbig]⟩
  obtain ⟨M', e1, e2, e3, e4, e5⟩ := c1 hfit
  rw [e1]
  refine ⟨M', rfl, ?_, e5⟩
  have hci : cls win (needed vs) ≤ i := by
    cases hw : win with
    | false => exact cls_le_of_fit (by omega) hfit
    | true => rw [← hcls, hw]; exact cls_mono true (hs.decl hw)
  have hchunk := chunk_mono hci
  have hsmall : needed vs < 2^16 := by
    have : 32 <<< i ≤ 32 <<< 4 := chunk_mono (by omega)
    have h512 : 32 <<< 4 = 512 := rfl
    omega
  refine ⟨h.idx, ?_, ?_, ?_⟩
  · intro r hr
    simp only [regs, List.map_cons, List.cons_append, List.mem_cons] at hr
    rcases hr with rfl | hr
    · simp only [liveReg, Pool.setList]; omega
    · exact h.inside r (hperm.mem_iff.mpr (List.mem_cons_of_mem _ hr))
  · simp only [regs, List.map_cons, List.cons_append]
    rw [List.pairwise_cons]
    refine ⟨fun r hr => ?_, hpw.2⟩
    have := hpw.1 r hr
    unfold Dj at *
    simp only [liveReg] at *
    omega
  · intro l hl
    simp only [List.mem_cons] at hl
    rcases hl with rfl | hl
    · exact ⟨e2, e3, by rw [e4, Nat.mod_eq_of_lt hsmall], hs.pos, by simp only; omega⟩
    · refine (h.live l hl).frame fun x h1 h2 => e5 x ?_
      have := hlive l hl
      unfold Dj at this
      simp only [liveReg] at *
      omega

theorem newRegs {P : Pool} {i : Nat} (hi : i < 4) :
    (∀ r ∈ (List.range (512 / (32 <<< i))).map (fun q => (P.buffer + P.bufferIndex + 32 <<< i * q, 32 <<< i)),
      P.buffer + P.bufferIndex ≤ r.1 ∧ r.1 + r.2 ≤ P.buffer + (P.bufferIndex + 512)) ∧
    ((List.range (512 / (32 <<< i))).map (fun q => (P.buffer + P.bufferIndex + 32 <<< i * q, 32 <<< i))).Pairwise Dj := by
  have hd := chunk_div hi
  have hp := chunk_pos i
  generalize 32 <<< i = c at *
  generalize 512 / c = k at *
  constructor
  · intro r hr
    simp only [List.mem_map, List.mem_range] at hr
    obtain ⟨q, hq, rfl⟩ := hr
    simp only
    have : c * q + c ≤ k * c := by
      calc c * q + c = c * (q + 1) := by rw [Nat.mul_add, Nat.mul_one]
        _ ≤ c * k := Nat.mul_le_mul_left _ hq
        _ = k * c := Nat.mul_comm _ _
    omega
  · rw [List.pairwise_map]
    refine List.pairwise_lt_range.imp ?_
    intro a b hab
    left
    simp only
    have : c * a + c ≤ c * b := by
      calc c * a + c = c * (a + 1) := by rw [Nat.mul_add, Nat.mul_one]
        _ ≤ c * b := Nat.mul_le_mul_left _ hab
    omega

/-- taking a new block from the buffer -/
theorem grow_spec {win : Bool} {M : Mem} {P : Pool} {L : List Live} (h : PInv win M P L) {i : Nat} (hi : i < 4)
    (he : P.lists i = []) (hfit : P.bufferIndex + 512 ≤ P.bufferSize) :
    PInv win M { P.setList i (pushChunks P.buffer (32 <<< i) (512 / (32 <<< i)) P.bufferIndex (P.lists i)) with
      bufferIndex := P.bufferIndex + 512 } L ∧
    (pushChunks P.buffer (32 <<< i) (512 / (32 <<< i)) P.bufferIndex (P.lists i)).length = 512 / (32 <<< i) := by
  have hpc := pushChunks_perm P.buffer (32 <<< i) (512 / (32 <<< i)) P.bufferIndex (P.lists i)
  generalize hl : pushChunks P.buffer (32 <<< i) (512 / (32 <<< i)) P.bufferIndex (P.lists i) = l at *
  rw [he, List.append_nil] at hpc
  have h1 := freeRegs_perm P hi
  rw [listRegs, he, List.map_nil, List.nil_append] at h1
  have h2 := freeRegs_setList P hi l
  have h3 : freeRegs { P.setList i l with bufferIndex := P.bufferIndex + 512 } = freeRegs (P.setList i l) :=
    freeRegs_congr rfl
  have h4 : (l.map fun a => (a, 32 <<< i)).Perm
      ((List.range (512 / (32 <<< i))).map (fun q => (P.buffer + P.bufferIndex + 32 <<< i * q, 32 <<< i))) := by
    have := hpc.map (fun a => (a, 32 <<< i))
    rwa [List.map_map] at this
  obtain ⟨n1, n2⟩ := newRegs (P := P) hi
  have hperm : (regs win { P.setList i l with bufferIndex := P.bufferIndex + 512 } L).Perm
      ((List.range (512 / (32 <<< i))).map (fun q => (P.buffer + P.bufferIndex + 32 <<< i * q, 32 <<< i)) ++ regs win P L) := by
    unfold regs
    rw [h3]
    have h5 := h2.trans ((h4.append_right (others P i)).trans (h1.symm.append_left _))
    refine (h5.append_left _).trans ?_
    rw [← List.append_assoc, ← List.append_assoc]
    exact List.perm_append_comm.append_right _
  refine ⟨⟨hfit, ?_, ?_, h.live⟩, by rw [hpc.length_eq]; simp⟩
  · intro r hr
    have := hperm.mem_iff.mp hr
    rw [List.mem_append] at this
    rcases this with hr | hr
    · have := n1 r hr
      simp only [Pool.setList]
      omega
    · have := h.inside r hr
      simp only [Pool.setList]
      omega
  · rw [pairwise_perm hperm, List.pairwise_append]
    refine ⟨n2, h.disj, ?_⟩
    intro a ha b hb
    have := n1 a ha
    have := h.inside b hb
    right
    omega

theorem safe_congr {P Q : Pool} {L : List Live} {lo n : Nat} (hb : P.buffer = Q.buffer) (hs : P.bufferSize = Q.bufferSize)
    (h : Safe P L lo n) : Safe Q L lo n := by
  unfold Safe at *; rw [← hb, ← hs]; exact h

theorem SrcOk.congr {win : Bool} {fuel : Nat} {M : Mem} {P Q : Pool} {L : List Live} {m t : Nat} {vs : List Val}
    (h : SrcOk win fuel M P L m t vs) (hb : P.buffer = Q.buffer) (hs : P.bufferSize = Q.bufferSize) :
    SrcOk win fuel M Q L m t vs :=
  ⟨h.msg, h.pos, safe_congr hb hs h.core, fun i hi s hsy => ⟨safe_congr hb hs (h.strs i hi s hsy).1, (h.strs i hi s hsy).2⟩,
    h.decl, h.decl2⟩

/-- the exact outcome of `mp_addMessage` -/
theorem addMessage_spec {win : Bool} {fuel : Nat} {M : Mem} {P : Pool} {L : List Live} (h : PInv win M P L)
    {m t : Nat} {vs : List Val} (hs : SrcOk win fuel M P L m t vs) (h64 : P.buffer + P.bufferSize ≤ 2^64) :
    ((cls win (getSize M m) < 4 ∧ needed vs ≤ 32 <<< cls win (getSize M m) ∧
        (P.lists (cls win (getSize M m)) ≠ [] ∨ P.bufferIndex + 512 ≤ P.bufferSize)) ∧
      ∃ M' P' buf, addMessage win fuel M P m = .ok (M', P', buf) ∧ PInv win M' P' (⟨buf, t, vs⟩ :: L) ∧
        P'.buffer = P.buffer ∧ P'.bufferSize = P.bufferSize ∧
        (∀ j, j ≠ cls win (getSize M m) → P'.lists j = P.lists j) ∧
        (P.lists (cls win (getSize M m)) ≠ [] → P'.bufferIndex = P.bufferIndex ∧
          P'.lists (cls win (getSize M m)) = (P.lists (cls win (getSize M m))).tail) ∧
        (P.lists (cls win (getSize M m)) = [] → P'.bufferIndex = P.bufferIndex + 512 ∧
          (P'.lists (cls win (getSize M m))).length + 1 = 512 / (32 <<< cls win (getSize M m))) ∧
        (∀ x, x < P.buffer ∨ P.buffer + P.bufferSize ≤ x → M' x = M x)) ∨
    (¬ (cls win (getSize M m) < 4 ∧ needed vs ≤ 32 <<< cls win (getSize M m) ∧
        (P.lists (cls win (getSize M m)) ≠ [] ∨ P.bufferIndex + 512 ≤ P.bufferSize)) ∧
      addMessage win fuel M P m = .error .assertFail) := by
  unfold addMessage
  simp only [listIndex_eq hs.decl2, bind, Except.bind]
  generalize hi : cls win (getSize M m) = i
  by_cases hi4 : i < 4
  · rw [assert_true (by simp [numLists, hi4])]
    simp only
    by_cases hne : P.lists i ≠ []
    · rw [if_pos hne]
      obtain ⟨buf, rest, hl⟩ := List.exists_cons_of_ne_nil hne
      obtain ⟨p1, p2⟩ := popCopy_spec h hs h64 hi4 hi hl
      by_cases hfit : needed vs ≤ 32 <<< i
      · left
        obtain ⟨M', e1, e2, e3⟩ := p1 hfit
        have hbuf := e2.inside (liveReg win ⟨buf, t, vs⟩) (by simp [regs])
        have hge := needed_ge hs.pos
        have hcf := cls_fit win (needed vs) (by omega)
        have hidx := h.idx
        refine ⟨⟨hi4, hfit, .inl hne⟩, M', P.setList i rest, buf, e1, e2, rfl, rfl, ?_, ?_, fun he => absurd he hne, ?_⟩
        · intro j hj; simp [Pool.setList, hj]
        · intro _; simp [Pool.setList, hl]
        · intro x hx
          simp only [liveReg, Pool.setList] at hbuf
          exact e3 x (by omega)
      · right
        exact ⟨fun hh => hfit hh.2.1, p2 (by omega)⟩
    · rw [if_neg hne]
      have he : P.lists i = [] := by simpa using hne
      by_cases hsp : P.bufferIndex + 512 ≤ P.bufferSize
      · rw [assert_true (by simp [blockSize, hsp])]
        simp only
        obtain ⟨g1, g2⟩ := grow_spec h hi4 he hsp
        simp only [blockSize]
        generalize hl0 : pushChunks P.buffer (32 <<< i) (512 / (32 <<< i)) P.bufferIndex (P.lists i) = l at *
        have hdiv := chunk_div hi4
        cases l with
        | nil => simp only [List.length_nil] at g2; rw [← g2] at hdiv; simp at hdiv
        | cons buf rest =>
          have hlq : ({ P.setList i (buf :: rest) with bufferIndex := P.bufferIndex + 512 } : Pool).lists i = buf :: rest := by
            simp [Pool.setList]
          obtain ⟨p1, p2⟩ := popCopy_spec g1 (hs.congr (by rfl) (by rfl)) h64 hi4 hi hlq
          by_cases hfit : needed vs ≤ 32 <<< i
          · left
            obtain ⟨M', e1, e2, e3⟩ := p1 hfit
            have hbuf := e2.inside (liveReg win ⟨buf, t, vs⟩) (by simp [regs])
            have hge := needed_ge hs.pos
            have hcf := cls_fit win (needed vs) (by omega)
            refine ⟨⟨hi4, hfit, .inr hsp⟩, M', _, buf, e1, e2, rfl, rfl, ?_, fun hh => absurd he hh, ?_, ?_⟩
            · intro j hj; simp [Pool.setList, hj]
            · intro _; simpa [Pool.setList] using g2
            · intro x hx
              simp only [liveReg, Pool.setList] at hbuf
              exact e3 x (by omega)
          · right
            exact ⟨fun hh => hfit hh.2.1, p2 (by omega)⟩
      · right
        rw [assert_false (decide_eq_false (by unfold blockSize; exact hsp))]
        exact ⟨fun hh => hh.2.2.elim (fun h => hne h) hsp, rfl⟩
  · right
    rw [assert_false (decide_eq_false (by unfold numLists; exact hi4))]
    exact ⟨fun hh => hi4 hh.1, rfl⟩

/-- `mp_freeMessage` of a live message -/
theorem freeMessage_spec {win : Bool} {M : Mem} {P : Pool} {L₁ L₂ : List Live} {l : Live}
    (h : PInv win M P (L₁ ++ l :: L₂)) :
    ∃ M', freeMessage win M P l.a =
        .ok (M', P.setList (cls win (needed l.vs)) (l.a :: P.lists (cls win (needed l.vs)))) ∧
      PInv win M' (P.setList (cls win (needed l.vs)) (l.a :: P.lists (cls win (needed l.vs)))) (L₁ ++ L₂) ∧
      ∀ x, x < P.buffer ∨ P.buffer + P.bufferSize ≤ x → M' x = M x := by
  have hI := h.live l (by simp)
  have hge := needed_ge hI.pos
  unfold freeMessage
  simp only [hI.size, listIndex_eq (show 2 ≤ needed l.vs by omega), bind, Except.bind]
  have hsm := hI.small
  generalize hi : cls win (needed l.vs) = i at *
  rw [if_pos (by simpa [numLists] using hsm)]
  have h1 := freeRegs_perm P hsm
  have h2 := freeRegs_setList P hsm (l.a :: P.lists i)
  have hlr : liveReg win l = (l.a, 32 <<< i) := by simp [liveReg, hi]
  have hperm : (regs win (P.setList i (l.a :: P.lists i)) (L₁ ++ L₂)).Perm (regs win P (L₁ ++ l :: L₂)) := by
    unfold regs
    rw [List.map_cons, List.cons_append] at h2
    have h3 : (freeRegs (P.setList i (l.a :: P.lists i))).Perm ((l.a, 32 <<< i) :: freeRegs P) :=
      h2.trans (h1.symm.cons _)
    simp only [List.map_append, List.map_cons, hlr]
    refine (h3.append_left _).trans ?_
    refine List.perm_middle.trans ?_
    have : ((l.a, 32 <<< i) :: (List.map (liveReg win) L₁ ++ List.map (liveReg win) L₂)).Perm
        (List.map (liveReg win) L₁ ++ (l.a, 32 <<< i) :: List.map (liveReg win) L₂) := List.perm_middle.symm
    exact this.append_right (freeRegs P)
  have hin := h.inside (liveReg win l) (by simp [regs])
  rw [hlr] at hin
  have hidx := h.idx
  refine ⟨_, rfl, ⟨h.idx, ?_, (pairwise_perm hperm).mpr h.disj, ?_⟩, fun x hx => memclear_out (by simp only at hin; omega)⟩
  · intro r hr
    exact h.inside r (hperm.mem_iff.mp hr)
  · intro k hk
    have hk' : k ∈ L₁ ++ l :: L₂ := by
      simp only [List.mem_append, List.mem_cons] at *
      rcases hk with hk | hk
      · exact .inl hk
      · exact .inr (.inr hk)
    refine (h.live k hk').frame fun x g1 g2 => memclear_out ?_
    -- regions of k and l are disjoint
    have hpm : (regs win P (L₁ ++ l :: L₂)).Perm (liveReg win l :: (List.map (liveReg win) (L₁ ++ L₂) ++ freeRegs P)) := by
      unfold regs
      simp only [List.map_append, List.map_cons]
      have : (List.map (liveReg win) L₁ ++ liveReg win l :: List.map (liveReg win) L₂).Perm
        (liveReg win l :: (List.map (liveReg win) L₁ ++ List.map (liveReg win) L₂)) := List.perm_middle
      exact this.append_right (freeRegs P)
    have hpw := (pairwise_perm hpm).mp h.disj
    rw [List.pairwise_cons] at hpw
    have := hpw.1 (liveReg win k) (by rw [List.mem_append]; exact .inl (List.mem_map_of_mem hk))
    unfold Dj at this
    rw [hlr] at this
    simp only [liveReg] at this g2 ⊢
    omega

end Verif.Pool
