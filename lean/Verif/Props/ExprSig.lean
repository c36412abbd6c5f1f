import Verif.ExprSig
import Mathlib.Data.List.Basic
import Mathlib.Data.List.Range
import Mathlib.Data.List.Perm.Basic
import Mathlib.Tactic.Linarith
/-!
C39, C41: specification and proofs.
-/
namespace Verif.ExprSig

variable {V : Type}

/-! ## Specification -/

/-- the value of an expression: `x n` is the signal of inlet `n` (from 1), `neg` the negation -/
def Ex.value (A : Alg V) (neg : V → V) (x : Nat → V) : Ex → V
  | .num c => A.const c
  | .var n => x n
  | .neg a => neg (a.value A neg x)
  | .un f a => A.op f [a.value A neg x]
  | .bin f a b => A.op f [a.value A neg x, b.value A neg x]
  | .tri f a b c => A.op f [a.value A neg x, b.value A neg x, c.value A neg x]

/-- an operand that is not a variable is held in a buffer -/
def Ex.held : Ex → Nat
  | .var _ => 0
  | _ => 1

/-- the number of buffers that are in use at the same time while an operand is computed from left to right, its result included -/
def Ex.need : Ex → Nat
  | .num _ => 1
  | .var _ => 0
  | .neg a => max (1 + a.need) (1 + a.held + 1)
  | .un _ a => max a.need (a.held + 1)
  | .bin _ a b => max (max a.need (a.held + b.need)) (a.held + b.held + 1)
  | .tri _ a b c => max (max (max a.need (a.held + b.need)) (a.held + b.held + c.need)) (a.held + b.held + c.held + 1)

/-- the same for the whole expression, whose result goes to the output -/
def Ex.buffers : Ex → Nat
  | .num _ => 0
  | .var _ => 0
  | .neg a => 1 + a.need
  | .un _ a => a.need
  | .bin _ a b => max a.need (a.held + b.need)
  | .tri _ a b c => max (max a.need (a.held + b.need)) (a.held + b.held + c.need)

/-- the buffers a line mentions -/
def bufsOf : List Ref → List Nat
  | [] => []
  | .buf n :: rs => n :: bufsOf rs
  | _ :: rs => bufsOf rs

def Instr.bufs : Instr → List Nat
  | .load d _ => bufsOf [d]
  | .op _ args d => bufsOf (args ++ [d])

/-- more than a variable or a number -/
def Ex.Compound : Ex → Prop
  | .num _ => False
  | .var _ => False
  | _ => True

/-! ## Proofs -/

theorem bufsOf_append (a b : List Ref) : bufsOf (a ++ b) = bufsOf a ++ bufsOf b := by
  induction a with
  | nil => rfl
  | cons r rs ih => cases r <;> simp [bufsOf, ih]

theorem mem_bufsOf {rs : List Ref} {n : Nat} : n ∈ bufsOf rs ↔ Ref.buf n ∈ rs := by
  induction rs with
  | nil => simp [bufsOf]
  | cons r rs ih => cases r <;> simp [bufsOf, ih]

theorem firstDigit_lt {n : Nat} (h : n < 10) : firstDigit n = n := by
  rw [firstDigit]; simp [h]

/-- `L`: the buffers in use -/
def Inv (L : List Nat) (s : St) : Prop := (L ++ s.avail).Perm (List.range s.next)

theorem Inv.perm {L L' : List Nat} {s : St} (h : Inv L s) (hp : L.Perm L') : Inv L' s :=
  (hp.symm.append_right _).trans h

theorem Inv.lt {L : List Nat} {s : St} (h : Inv L s) {n : Nat} (hn : n ∈ L) : n < s.next :=
  List.mem_range.mp (h.mem_iff.mp (List.mem_append_left _ hn))

theorem Inv.nodup {L : List Nat} {s : St} (h : Inv L s) : (L ++ s.avail).Nodup :=
  h.nodup_iff.mpr List.nodup_range

theorem Inv.length {L : List Nat} {s : St} (h : Inv L s) : L.length + s.avail.length = s.next := by
  have := List.Perm.length_eq h
  simpa using this

/-- `set.pop` takes an element of the set -/
def Pick (pick : List Instr → List Nat → Nat) : Prop := ∀ t l, l ≠ [] → pick t l ∈ l

variable {pick : List Instr → List Nat → Nat}

theorem fresh_inv (hp : Pick pick) {L : List Nat} {s : St} (h : Inv L s) :
    Inv ((s.fresh pick).1 :: L) (s.fresh pick).2 ∧ (s.fresh pick).2.next = max s.next (L.length + 1) ∧
    (s.fresh pick).2.lines = s.lines := by
  have hlen := h.length
  unfold St.fresh
  by_cases he : s.avail = []
  · rw [if_pos he]
    refine ⟨?_, ?_, rfl⟩
    · unfold Inv at h ⊢
      simp only [he, List.append_nil] at h ⊢
      rw [List.range_succ]
      exact (List.Perm.cons _ h).trans (List.perm_append_singleton _ _).symm
    · rw [he] at hlen
      simp at hlen ⊢
      omega
  · rw [if_neg he]
    refine ⟨?_, ?_, rfl⟩
    · unfold Inv at h ⊢
      simp only
      have := List.perm_cons_erase (hp s.lines s.avail he)
      refine List.Perm.trans ?_ h
      refine List.Perm.trans ?_ (this.symm.append_left L)
      exact List.perm_middle.symm
    · have : 0 < s.avail.length := List.length_pos_of_ne_nil he
      simp only
      omega

theorem free_inv {L : List Nat} {s : St} {n : Nat} (h : Inv (n :: L) s) (hn : n < 10) : Inv L (s.free (firstDigit n)) := by
  rw [firstDigit_lt hn]
  have hnd := h.nodup
  have hm : n ∉ s.avail := fun hm => by
    rw [List.cons_append, List.nodup_cons] at hnd
    exact hnd.1 (List.mem_append_right _ hm)
  unfold Inv St.free at *
  simp only [hm, if_false]
  exact List.perm_middle.trans h

theorem freeAll_inv {L : List Nat} {rs : List Ref} {s : St} (h : Inv (bufsOf rs ++ L) s) (h10 : s.next ≤ 10) :
    Inv L (s.freeAll rs) ∧ (s.freeAll rs).next = s.next ∧ (s.freeAll rs).lines = s.lines := by
  induction rs generalizing s with
  | nil => exact ⟨h, rfl, rfl⟩
  | cons r rs ih =>
    cases r with
    | buf n =>
      have hn : n < 10 := lt_of_lt_of_le (h.lt (by simp [bufsOf])) h10
      exact ih (s := s.free (firstDigit n)) (free_inv h hn) h10
    | inp i => exact ih h h10
    | out => exact ih h h10
    | const c => exact ih h h10

theorem exec_append (A : Alg V) (b : Int → V) (x y : List Instr) (m : Mem V) : exec A b (x ++ y) m = exec A b y (exec A b x m) := by
  simp [exec]

/-- `s'` comes from `s` by lines that compute the values `vs` into `rs`, with `k` buffers, and keep the buffers `L` -/
structure Good (A : Alg V) (bIns : Int → V) (L : List Nat) (s s' : St) (rs : List Ref) (vs : List V) (k : Nat) : Prop where
  code : ∃ code, s'.lines = s.lines ++ code ∧ (∀ i ∈ code, ∀ n ∈ i.bufs, n < s'.next) ∧
    ∀ m : Mem V, (exec A bIns code m).out = m.out ∧ (∀ n ∈ L, (exec A bIns code m).buf n = m.buf n) ∧
      rs.map ((exec A bIns code m).get A bIns) = vs
  inv : Inv (bufsOf rs ++ L) s'
  next : s'.next = max s.next (L.length + k)
  refs : ∀ r ∈ rs, (∃ i, r = .inp i) ∨ ∃ n, r = .buf n

variable {A : Alg V} {bIns : Int → V}

theorem get_keep {rs : List Ref} (hr : ∀ r ∈ rs, (∃ i, r = .inp i) ∨ ∃ n, r = .buf n) {m m' : Mem V}
    (h : ∀ n ∈ bufsOf rs, m'.buf n = m.buf n) : rs.map (m'.get A bIns) = rs.map (m.get A bIns) := by
  apply List.map_congr_left
  intro r hm
  rcases hr r hm with ⟨i, rfl⟩ | ⟨n, rfl⟩
  · rfl
  · exact h n (mem_bufsOf.mpr hm)

theorem Good.nil {L : List Nat} {s : St} (h : Inv L s) : Good A bIns L s s [] [] 0 :=
  ⟨⟨[], by simp, by simp, fun m => ⟨rfl, fun _ _ => rfl, rfl⟩⟩, h, by have := h.length; simp; omega, by simp⟩

theorem Good.append {L : List Nat} {s s' s'' : St} {rs rs' : List Ref} {vs vs' : List V} {k k' : Nat}
    (h : Good A bIns L s s' rs vs k) (h' : Good A bIns (bufsOf rs ++ L) s' s'' rs' vs' k') :
    Good A bIns L s s'' (rs ++ rs') (vs ++ vs') (max k ((bufsOf rs).length + k')) where
  code := by
    obtain ⟨c, h1, h2, h3⟩ := h.code
    obtain ⟨c', h1', h2', h3'⟩ := h'.code
    refine ⟨c ++ c', by rw [h1', h1, List.append_assoc], fun i hi n hn => ?_, fun m => ?_⟩
    · rcases List.mem_append.mp hi with hi | hi
      · have := h2 i hi n hn
        have := h'.next
        omega
      · exact h2' i hi n hn
    · rw [exec_append]
      obtain ⟨a1, a2, a3⟩ := h3 m
      obtain ⟨b1, b2, b3⟩ := h3' (exec A bIns c m)
      refine ⟨by rw [b1, a1], fun n hn => by rw [b2 n (List.mem_append_right _ hn), a2 n hn], ?_⟩
      rw [List.map_append, b3, get_keep h.refs fun n hn => b2 n (List.mem_append_left _ hn), a3]
  inv := h'.inv.perm (by rw [bufsOf_append, ← List.append_assoc]; exact (List.perm_append_comm).append_right _)
  next := by
    rw [h'.next, h.next, List.length_append]
    omega
  refs := fun r hr => by
    rcases List.mem_append.mp hr with hr | hr
    · exact h.refs r hr
    · exact h'.refs r hr

theorem set_get_buf (m : Mem V) (n k : Nat) (v : V) : (m.set (.buf n) v).buf k = if k = n then v else m.buf k := rfl

/-- a function is applied and the operands are released -/
theorem Good.apply (hp : Pick pick) {L : List Nat} {s s' : St} {rs : List Ref} {vs : List V} {k : Nat}
    (h : Good A bIns L s s' rs vs k) (f : Nat) (h10 : s'.next ≤ 10) (hk : L.length + (bufsOf rs).length + 1 ≤ 10) :
    Good A bIns L s (s'.apply pick f rs false).2 [(s'.apply pick f rs false).1] [A.op f vs] (max k ((bufsOf rs).length + 1)) := by
  obtain ⟨f1, f2, f3⟩ := fresh_inv hp h.inv
  rw [List.length_append] at f2
  have f4 : (s'.fresh pick).1 ∉ bufsOf rs ++ L := by
    have := f1.nodup
    rw [List.cons_append, List.nodup_cons] at this
    exact fun hm => this.1 (List.mem_append_left _ hm)
  have f5 : (s'.fresh pick).1 < (s'.fresh pick).2.next := f1.lt (by simp)
  unfold St.apply
  simp only [Bool.false_eq_true, if_false]
  generalize (s'.fresh pick).1 = d at *
  generalize (s'.fresh pick).2 = s1 at *
  have g1 : Inv (bufsOf rs ++ (d :: L)) (s1.emit (.op f rs (.buf d))) := f1.perm List.perm_middle.symm
  have g2 : (s1.emit (.op f rs (.buf d))).next ≤ 10 := by show s1.next ≤ 10; omega
  obtain ⟨g3, g4, g5⟩ := freeAll_inv g1 g2
  refine ⟨?_, g3, ?_, by simp⟩
  · obtain ⟨c, h1, h2, h3⟩ := h.code
    refine ⟨c ++ [.op f rs (.buf d)], ?_, ?_, fun m => ?_⟩
    · rw [g5]
      show s1.lines ++ _ = _
      rw [f3, h1, List.append_assoc]
    · intro i hi n hn
      rw [g4]
      show n < s1.next
      rcases List.mem_append.mp hi with hi | hi
      · have := h2 i hi n hn
        omega
      · simp only [List.mem_singleton] at hi
        subst hi
        simp only [Instr.bufs, bufsOf_append, List.mem_append] at hn
        rcases hn with hn | hn
        · exact f1.lt (List.mem_cons_of_mem _ (List.mem_append_left _ hn))
        · simp [bufsOf] at hn
          rw [hn]; exact f5
    · rw [exec_append]
      obtain ⟨a1, a2, a3⟩ := h3 m
      generalize exec A bIns c m = m1 at *
      refine ⟨?_, fun n hn => ?_, ?_⟩
      · exact a1
      · show (if n = d then _ else m1.buf n) = _
        rw [if_neg fun e => f4 (by rw [← e]; exact List.mem_append_right _ hn), a2 n hn]
      · show [if d = d then A.op f (rs.map (m1.get A bIns)) else m1.buf d] = _
        rw [if_pos rfl, a3]
  · rw [g4]
    show s1.next = _
    have := h.next
    omega

theorem load_good (hp : Pick pick) {L : List Nat} {s : St} (h : Inv L s) (c : Num) :
    Good A bIns L s (s.load pick c).2 [(s.load pick c).1] [A.const c] 1 := by
  obtain ⟨f1, f2, f3⟩ := fresh_inv hp h
  have f4 : (s.fresh pick).1 ∉ L := by
    have := f1.nodup
    rw [List.cons_append, List.nodup_cons] at this
    exact fun hm => this.1 (List.mem_append_left _ hm)
  have f5 : (s.fresh pick).1 < (s.fresh pick).2.next := f1.lt (by simp)
  unfold St.load
  generalize (s.fresh pick).1 = d at *
  generalize (s.fresh pick).2 = s1 at *
  refine ⟨⟨[.load (.buf d) c], by show s1.lines ++ _ = _; rw [f3], ?_, fun m => ⟨rfl, fun n hn => ?_, ?_⟩⟩, f1, f2, by simp⟩
  · simp only [List.mem_singleton, Instr.bufs]
    rintro i rfl n hn
    simp [bufsOf] at hn
    rw [hn]
    exact f5
  · show (if n = d then _ else m.buf n) = _
    rw [if_neg fun e => f4 (by rw [← e]; exact hn)]
  · show [if d = d then A.const c else m.buf d] = _
    rw [if_pos rfl]

theorem held_le_need (e : Ex) : e.held ≤ e.need := by
  cases e <;> simp [Ex.held, Ex.need] <;> omega

/-- how many buffers the result takes -/
theorem comp_held (e : Ex) (s : St) : (bufsOf [(comp pick false e s).1]).length = e.held := by
  cases e <;> simp [comp, St.load, St.apply, bufsOf, Ex.held]

theorem comp_good (hp : Pick pick) {neg : V → V} {x : Nat → V} (hx : ∀ n : Nat, bIns ((n : Int) - 1) = x n)
    (hneg : ∀ v, A.op opSub [A.const zeroF, v] = neg v) (e : Ex) {L : List Nat} {s : St} (h : Inv L s)
    (h10 : s.next ≤ 10) (hk : L.length + e.need ≤ 10) :
    Good A bIns L s (comp pick false e s).2 [(comp pick false e s).1] [e.value A neg x] e.need := by
  induction e generalizing L s with
  | num c => exact load_good hp h c
  | var n =>
    refine ⟨⟨[], by simp [comp], by simp, fun m => ⟨rfl, fun _ _ => rfl, ?_⟩⟩, h, ?_, by simp [comp]⟩
    · show [bIns ((n : Int) - 1)] = _
      rw [hx]; rfl
    · have := h.length
      simp only [comp, Ex.need]
      omega
  | neg a ih =>
    simp only [Ex.need] at hk
    have k1 := load_good (A := A) (bIns := bIns) hp h zeroF
    have kl : (bufsOf [(s.load pick zeroF).1]).length = 1 := rfl
    have n1 := k1.next
    have k2 := ih k1.inv (by omega) (by rw [List.length_append, kl]; omega)
    have k3 := k1.append k2
    have hl := comp_held (pick := pick) a (s.load pick zeroF).2
    have n2 := k3.next
    have k4 := k3.apply hp opSub (by rw [kl] at n2; omega) (by rw [bufsOf_append, List.length_append, kl, hl]; omega)
    rw [bufsOf_append, List.length_append, kl, hl] at k4
    simpa only [List.singleton_append, List.cons_append, List.nil_append, hneg, Nat.max_assoc, comp, Ex.need, Ex.value,
      Nat.max_eq_right (show 1 ≤ 1 + a.need by omega), Nat.max_eq_left, ← Nat.max_assoc] using k4
  | un f a ih =>
    simp only [Ex.need] at hk
    have k2 := ih h h10 (by omega)
    have hl := comp_held (pick := pick) a s
    have n2 := k2.next
    have k4 := k2.apply hp f (by omega) (by rw [hl]; omega)
    rw [hl] at k4
    exact k4
  | bin f a b iha ihb =>
    simp only [Ex.need] at hk
    have k1 := iha h h10 (by omega)
    have hl := comp_held (pick := pick) a s
    have n1 := k1.next
    have k2 := ihb k1.inv (by omega) (by rw [List.length_append, hl]; omega)
    have hl2 := comp_held (pick := pick) b (comp pick false a s).2
    have k3 := k1.append k2
    have n2 := k3.next
    rw [hl] at n2
    have k4 := k3.apply hp f (by omega) (by rw [bufsOf_append, List.length_append, hl, hl2]; omega)
    rw [bufsOf_append, List.length_append, hl, hl2] at k4
    exact k4
  | tri f a b c iha ihb ihc =>
    simp only [Ex.need] at hk
    have k1 := iha h h10 (by omega)
    have hl := comp_held (pick := pick) a s
    have n1 := k1.next
    have k2 := ihb k1.inv (by omega) (by rw [List.length_append, hl]; omega)
    have hl2 := comp_held (pick := pick) b (comp pick false a s).2
    have k3 := k1.append k2
    have n2 := k3.next
    rw [hl] at n2
    have hb : (bufsOf ([(comp pick false a s).1] ++ [(comp pick false b (comp pick false a s).2).1])).length = a.held + b.held := by
      rw [bufsOf_append, List.length_append, hl, hl2]
    have k5 := ihc k3.inv (by omega) (by rw [List.length_append, hb]; omega)
    have hl3 := comp_held (pick := pick) c (comp pick false b (comp pick false a s).2).2
    have k6 := k3.append k5
    have n3 := k6.next
    rw [hb] at n3
    have hb3 : (bufsOf ([(comp pick false a s).1] ++ [(comp pick false b (comp pick false a s).2).1] ++
        [(comp pick false c (comp pick false b (comp pick false a s).2).2).1])).length = a.held + b.held + c.held := by
      rw [bufsOf_append, List.length_append, hb, hl3]
    have k4 := k6.apply hp f (by omega) (by rw [hb3]; omega)
    rw [hb3, hb, hl] at k4
    exact k4

theorem freeAll_next (s : St) (rs : List Ref) : (s.freeAll rs).next = s.next ∧ (s.freeAll rs).lines = s.lines := by
  induction rs generalizing s with
  | nil => exact ⟨rfl, rfl⟩
  | cons r rs ih => cases r <;> exact ih _

theorem Good.root {s' : St} {rs : List Ref} {vs : List V} {k : Nat} (h : Good A bIns [] ⟨[], 0, []⟩ s' rs vs k) (f : Nat) :
    (s'.apply pick f rs true).2.next = k ∧
    (∀ i ∈ (s'.apply pick f rs true).2.lines, ∀ n ∈ i.bufs, n < k) ∧
    ∀ m : Mem V, (exec A bIns (s'.apply pick f rs true).2.lines m).out = A.op f vs := by
  have hn : s'.next = k := by have := h.next; simpa using this
  unfold St.apply
  simp only [if_true]
  rw [(freeAll_next _ _).1, (freeAll_next _ _).2]
  obtain ⟨c, h1, h2, h3⟩ := h.code
  refine ⟨hn, fun i hi n hm => ?_, fun m => ?_⟩
  · simp only [St.emit, List.mem_append, List.mem_singleton] at hi
    rw [← hn]
    rcases hi with hi | rfl
    · rw [h1, List.nil_append] at hi
      exact h2 i hi n hm
    · simp only [Instr.bufs, bufsOf_append, List.mem_append] at hm
      rcases hm with hm | hm
      · exact h.inv.lt (List.mem_append_left _ hm)
      · simp [bufsOf] at hm
  · simp only [St.emit]
    rw [exec_append, h1, List.nil_append]
    show A.op f (rs.map ((exec A bIns c m).get A bIns)) = _
    rw [(h3 m).2.2]

/-- **C39** (part): the evaluator of every expression that is more than a variable or a number, and that never holds more than ten
buffers, stores the value of the expression in the output and declares exactly the buffers it uses, whatever the buffers contained
and whichever buffers `set.pop` chooses.  Missing: single variables and numbers (`bare_expression_writes_nothing`) and expressions
that need more buffers (`eleventh_buffer`); for both the claim is false. -/
theorem expr_correct_partial (hp : Pick pick) (e : Ex) (hc : e.Compound) (hb : e.buffers ≤ 10)
    (A : Alg V) (bIns : Int → V) (neg : V → V) (x : Nat → V)
    (hx : ∀ n : Nat, bIns ((n : Int) - 1) = x n) (hneg : ∀ v, A.op opSub [A.const zeroF, v] = neg v) :
    (evaluator pick e).1 = e.buffers ∧
    (∀ i ∈ (evaluator pick e).2, ∀ n ∈ i.bufs, n < e.buffers) ∧
    ∀ m : Mem V, (exec A bIns (evaluator pick e).2 m).out = e.value A neg x := by
  have h0 : Inv [] ⟨[], 0, []⟩ := List.Perm.refl _
  cases e with
  | num c => exact hc.elim
  | var n => exact hc.elim
  | neg a =>
    simp only [Ex.buffers] at hb
    have k1 := load_good (A := A) (bIns := bIns) hp h0 zeroF
    have kl : (bufsOf [(St.load pick ⟨[], 0, []⟩ zeroF).1]).length = 1 := rfl
    have n1 := k1.next
    simp only at n1
    have k2 := comp_good hp hx hneg a k1.inv (by simp at n1; omega) (by rw [List.length_append, kl]; simpa using hb)
    have k3 := k1.append k2
    rw [kl, Nat.max_eq_right (show 1 ≤ 1 + a.need by omega)] at k3
    have := k3.root (pick := pick) opSub
    rw [List.singleton_append, List.singleton_append, hneg] at this
    exact this
  | un f a =>
    have k1 := comp_good hp hx hneg a h0 (by simp) (by simpa [Ex.buffers] using hb)
    exact k1.root (pick := pick) f
  | bin f a b =>
    simp only [Ex.buffers] at hb
    have k1 := comp_good hp hx hneg a h0 (by simp) (by simp; omega)
    have hl := comp_held (pick := pick) a ⟨[], 0, []⟩
    have n1 := k1.next
    simp only [List.length_nil, Nat.zero_add, Nat.zero_max] at n1
    have k2 := comp_good hp hx hneg b k1.inv (by omega) (by rw [List.length_append, hl]; simp; omega)
    have k3 := k1.append k2
    rw [hl] at k3
    exact k3.root (pick := pick) f
  | tri f a b c =>
    simp only [Ex.buffers] at hb
    have k1 := comp_good hp hx hneg a h0 (by simp) (by simp; omega)
    have hl := comp_held (pick := pick) a ⟨[], 0, []⟩
    have n1 := k1.next
    simp only [List.length_nil, Nat.zero_add, Nat.zero_max] at n1
    have k2 := comp_good hp hx hneg b k1.inv (by omega) (by rw [List.length_append, hl]; simp; omega)
    have hl2 := comp_held (pick := pick) b (comp pick false a ⟨[], 0, []⟩).2
    have k3 := k1.append k2
    rw [hl] at k3
    have n2 := k3.next
    simp only [List.length_nil, Nat.zero_add, Nat.zero_max] at n2
    have hbb : (bufsOf ([(comp pick false a ⟨[], 0, []⟩).1] ++ [(comp pick false b (comp pick false a ⟨[], 0, []⟩).2).1])).length = a.held + b.held := by
      rw [bufsOf_append, List.length_append, hl, hl2]
    have k5 := comp_good hp hx hneg c k3.inv (by omega) (by rw [List.length_append, hbb]; simp; omega)
    have k6 := k3.append k5
    rw [hbb] at k6
    exact k6.root (pick := pick) f

/-- an [expr~] that is a single variable or number, such as [expr~ $v1], never writes its output -/
theorem bare_expression_writes_nothing (e : Ex) (hc : ¬ e.Compound) (A : Alg V) (bIns : Int → V) (m : Mem V) :
    (exec A bIns (evaluator pick e).2 m).out = m.out := by
  cases e with
  | num c => rfl
  | var n => rfl
  | neg a => exact (hc trivial).elim
  | un f a => exact (hc trivial).elim
  | bin f a b => exact (hc trivial).elim
  | tri f a b c => exact (hc trivial).elim

/-! ### the eleventh buffer -/

/-- (1 + (1 + … (1 + 1))) -/
def nested : Nat → Ex
  | 0 => .num ⟨false, 1⟩
  | n + 1 => .bin 1 (.num ⟨false, 1⟩) (nested n)

/-- `set.pop` may take the first element -/
def pickHead (_ : List Instr) (l : List Nat) : Nat := l.headD 0

theorem pickHead_ok : Pick pickHead := by
  intro t l h
  cases l with
  | nil => exact absurd rfl h
  | cons a l => simp [pickHead]

/-- numbers and addition -/
def natAlg : Alg Nat := ⟨fun c => c.text, fun f l => if f = 0 then l.headD 0 - l.tail.headD 0 else l.sum⟩

/-- 1.0 + (1.0 + … ) with ten numbers needs eleven buffers; the release of `Bf10` releases `Bf1`, and the result is 17 -/
theorem eleventh_buffer : (nested 9).buffers = 11 ∧ (nested 9).value natAlg (0 - ·) (fun _ => 0) = 10 ∧
    (exec natAlg (fun _ => 0) (evaluator pickHead (nested 9)).2 ⟨fun _ => 0, 0⟩).out = 17 := by
  decide +kernel

/-! ### an example: `($v1 + 2.0) * ($v2 - $v1)` with `0` for subtraction -/

def sample : Ex := .bin 2 (.bin 1 (.var 1) (.num ⟨false, 2⟩)) (.bin 0 (.var 2) (.var 1))

example : evaluator pickHead sample = (2, [.load (.buf 0) ⟨false, 2⟩, .op 1 [.inp 0, .buf 0] (.buf 1), .op 0 [.inp 1, .inp 0] (.buf 0),
    .op 2 [.buf 1, .buf 0] .out]) := by decide +kernel

example : sample.Compound ∧ sample.buffers = 2 := ⟨trivial, rfl⟩

/-- integers: the hypotheses of `expr_correct_partial` hold -/
def intAlg : Alg Int := ⟨fun c => c.text, fun f l => if f = 0 then l.headD 0 - l.tail.headD 0 else if f = 1 then l.sum else l.prod⟩

example (m : Mem Int) : (exec intAlg (fun i => if i = 0 then 3 else 10) (evaluator pickHead sample).2 m).out = 35 :=
  (expr_correct_partial pickHead_ok sample trivial (by decide) intAlg _ (- ·) (fun n => if n = 1 then 3 else 10)
    (fun n => by
      by_cases h : n = 1
      · subst h; rfl
      · have : ¬ ((n : Int) - 1 = 0) := by omega
        simp [h, this])
    (fun v => by simp [intAlg, opSub, zeroF])).2.2 m

/-! ## C41 -/

theorem dictSet_new {d : List (Nat × Nat)} {k v : Nat} (h : k ∉ d.map (·.1)) : dictSet d k v = d ++ [(k, v)] := by
  unfold dictSet
  rw [if_neg]
  simp only [List.any_eq_true, decide_eq_true_eq, not_exists, not_and]
  intro x hx e
  exact h (List.mem_map.mpr ⟨x, hx, e⟩)

theorem processList_spec (ids : List Nat) (d : List (Nat × Nat)) (hd : ∀ x ∈ d, x.2 = x.1) (hn : (d.map (·.1) ++ ids).Nodup) :
    (processList ids d).2 = d ++ ids.map (fun i => (i, i)) ∧
    (processList ids d).1 = (ids.zipIdx d.length) := by
  induction ids generalizing d with
  | nil => simp [processList]
  | cons i ids ih =>
    have h1 : i ∉ d.map (·.1) := fun h => by
      rw [List.nodup_append] at hn
      exact hn.2.2 i h i (by simp) rfl
    rw [processList, dictSet_new h1]
    obtain ⟨a, b⟩ := ih (d ++ [(i, i)]) (by
      intro x hx
      rcases List.mem_append.mp hx with hx | hx
      · exact hd x hx
      · simp at hx; rw [hx]) (by simpa using hn)
    refine ⟨by rw [a]; simp, by rw [b]; simp [List.zipIdx_cons]⟩

/-- **C41**: there is one call for each expr~ object, in the order of processing, and the entry of the table it uses is the function
of that object.  (Object ids are different.) -/
theorem own_evaluator (ids : List Nat) (hn : ids.Nodup) :
    (processList ids []).1.map (·.1) = ids ∧
    ∀ id k, (id, k) ∈ (processList ids []).1 → (evaluators (processList ids []).2)[k]? = some id := by
  obtain ⟨a, b⟩ := processList_spec ids [] (by simp) (by simpa using hn)
  rw [a, b]
  refine ⟨by simp, fun id k h => ?_⟩
  have := List.mem_zipIdx_iff_getElem?.mp h
  simpa [evaluators] using this

example : processList [12, 5, 30] [] = ([(12, 0), (5, 1), (30, 2)], [(12, 12), (5, 5), (30, 30)]) := by decide

end Verif.ExprSig
