import Verif.Lib.Poly
import Verif.PolySpec
import Mathlib.Tactic.Linarith
/-!
The voices of `[poly]`: running the code of libs/pd/poly.pd, looking for a voice.
-/
set_option linter.unusedSimpArgs false
set_option maxRecDepth 10000
set_option maxHeartbeats 1000000
namespace Verif.Lib.Poly
open Verif.Control (Dest Kind Cast Patch Act Sys Env Big)

variable {a2 : ℚ} {n : Nat} {c : Ctx} {s s' : St} {l : Calls}

/-! ## tables -/
def cell (l : List ℚ) (i : Nat) : ℚ := l.getD i 0
section
variable {o t i : Nat} {q : ℚ} {m : Msg}
theorem step_len {x : String} (h : c.tabId x = some t) :
    step c .system o i [.sym "table", .sym x, .sym "length"] s = (s, some (0, [.float (s.tab t).length])) := by
  simp [step, systemStep, h]
theorem step_read (hi : i < (s.tab t).length) :
    step c (.tabread t) o 0 (.float (i : ℚ) :: m) s = (s, some (0, [.float (cell (s.tab t) i)])) := by
  have : (s.tab t)[i]? = some (s.tab t)[i] := List.getElem?_eq_getElem hi
  simp [step, tabreadStep, this, cell]
@[lib_step] theorem step_write : step c (.tabwrite t) o 0 (.float q :: m) s = (s.setTab t ((s.tab t).set ⌊num (s.mem o)⌋.toNat q), none) := rfl
theorem step_index (hi : i < (s.tab t).length) : step c (.tabwrite t) o 1 (.float (i : ℚ) :: m) s = (s.set o [.float i], none) := by
  simp [step, tabwriteStep, hi]
end
theorem ends_trans {S : Sys St Msg} {x : Dest × Msg} {l : Calls} {s s1 s2 : St} (h1 : Ends S [x] s s1) (h2 : Ends S l s1 s2) : Ends S (x :: l) s s2 := by
  rw [show x :: l = [x] ++ l from rfl, ends_append]
  exact ⟨s1, h1, h2⟩

@[simp] theorem ev_mul {a b : ℚ} : Op.eval .mul a b = a * b := rfl
@[simp] theorem ev_add {a b : ℚ} : Op.eval .add a b = a + b := rfl
@[simp] theorem ev_sub {a b : ℚ} : Op.eval .sub a b = a - b := rfl
@[simp] theorem ev_max {a b : ℚ} : Op.eval .max a b = max a b := rfl
@[simp] theorem ev_min {a b : ℚ} : Op.eval .min a b = min a b := rfl
@[simp] theorem ev_lt {a b : ℚ} : Op.eval .lt a b = tf (a < b) := rfl
@[simp] theorem ev_eq {a b : ℚ} : Op.eval .eq a b = tf (a = b) := rfl
@[simp] theorem ev_and {a b : ℚ} : Op.eval .and a b = tf (a ≠ 0 ∧ b ≠ 0) := by
  by_cases h1 : a = 0 <;> by_cases h2 : b = 0 <;> simp [Op.eval, tf, h1, h2]

section
attribute [-lib_poly] n533 n492
theorem loop_on {i : Nat} (hn : s.mem 485 = [.float n]) : Ends (sys n a2 c) (((487, 0), [.float i]) :: l) s s' ↔
    if i < n then Ends (sys n a2 c) (((533, 0), [.float i]) :: ((492, 0), [.float i]) :: l) ((s.set 488 [.float i]).set 484 [.float 1]) s'
    else Ends (sys n a2 c) l ((s.set 488 [.float i]).set 484 [.float 0]) s' := by
  by_cases h : i < n <;> simp [lib_step, lib_poly, hn, h, tf]
end


structure Scan where
  on : Option Nat
  off : Option Nat

/-- the index, 0 if there is none -/
def ix (o : Option Nat) : ℚ := ((o.getD 0 : Nat) : ℚ)
def fl (o : Option Nat) : ℚ := if o.isSome then 1 else 0
/-- the number to be compared with -/
def low (vs : List Voice) : Option Nat → ℚ
  | some i => (((vs[i]?.map (·.id)).getD 0 : Nat) : ℚ)
  | none => 65535

structure Tabs (vs : List Voice) (s : St) : Prop where
  pitches : s.tab 0 = vs.map (·.pitch)
  used : s.tab 1 = vs.map fun v => if v.used then 1 else 0
  ids : s.tab 2 = vs.map fun v => (v.id : ℚ)

structure Names (c : Ctx) : Prop where
  pitches : c.tabId "1-pitches" = some 0
  used : c.tabId "1-used" = some 1
  ids : c.tabId "1-ids" = some 2

/-- the cells that hold what is remembered -/
def keep : List Nat := [14, 18, 42, 53, 59, 598, 270, 91, 297, 415, 500, 109, 315, 433, 518, 129, 151, 187, 348, 381, 664, 686, 720, 197, 797, 629]

structure Frame (k : List Nat) (s s1 : St) : Prop where
  tab : s1.tab = s.tab
  log : s1.log = s.log
  q : s1.q = s.q
  now : s1.now = s.now
  mem : ∀ i ∈ k, s1.mem i = s.mem i

theorem Frame.trans {k : List Nat} {s s1 s2 : St} (h1 : Frame k s s1) (h2 : Frame k s1 s2) : Frame k s s2 :=
  ⟨h2.1.trans h1.1, h2.2.trans h1.2, h2.3.trans h1.3, h2.4.trans h1.4, fun i hi => (h2.5 i hi).trans (h1.5 i hi)⟩

structure ScanMem (vs : List Voice) (steal : ℚ) (x : Scan) (s : St) : Prop where
  minOn : s.mem 561 = [.float (low vs x.on)]
  minOff : s.mem 520 = [.float (low vs x.off)]
  on1 : s.mem 616 = [.float (ix x.on)]
  on2 : s.mem 632 = [.float (ix x.on)]
  on3 : s.mem 765 = [.float (ix x.on)]
  on4 : s.mem 787 = [.float (ix x.on)]
  on5 : s.mem 695 = [.float (ix x.on)]
  off1 : s.mem 741 = [.float (ix x.off)]
  off2 : s.mem 729 = [.float (ix x.off)]
  off3 : s.mem 753 = [.float (ix x.off)]
  off4 : s.mem 604 = [.float (ix x.off)]
  fOn : s.mem 596 = [.float (fl x.on)]
  fOff : s.mem 812 = [.float (1 - fl x.off)]
  gOff : s.mem 588 = [.float (fl x.off)]
  gate : s.mem 629 = [.float steal]
  gOn : s.mem 595 = [.float (if steal = 0 then 0 else fl x.on * (1 - fl x.off))]
  name1 : s.mem 664 = [.sym "1-used"]
  name2 : s.mem 686 = [.sym "1-ids"]

def Scan.next (vs : List Voice) (x : Scan) (i : Nat) (v : Voice) : Scan :=
  ⟨if v.used ∧ (v.id : ℚ) < low vs x.on then some i else x.on, if ¬ v.used ∧ (v.id : ℚ) < low vs x.off then some i else x.off⟩

theorem body_on {vs : List Voice} {steal : ℚ} {x : Scan} {i : Nat} {v : Voice} (ht : Tabs vs s) (hN : Names c) (h : ScanMem vs steal x s) (hv : vs[i]? = some v) :
    ∃ s1, Ends (sys n a2 c) [((533, 0), [.float i])] s s1 ∧ ScanMem vs steal (x.next vs i v) s1 ∧ Frame (485 :: keep) s s1 := by
  have hlen : i < vs.length := (List.getElem?_eq_some_iff.mp hv).1
  have hi : (i : ℚ) ≤ vs.length - 1 := by
    have : ((i + 1 : Nat) : ℚ) ≤ vs.length := by exact_mod_cast hlen
    push_cast at this; linarith
  have t1 : cell (s.tab 1) i = if v.used then 1 else 0 := by simp [cell, ht.used, hv]
  have t2 : cell (s.tab 2) i = v.id := by simp [cell, ht.ids, hv]
  have l0 : (s.tab 0).length = vs.length := by simp [ht.pitches]
  have l1 : (s.tab 1).length = vs.length := by simp [ht.used]
  have l2 : (s.tab 2).length = vs.length := by simp [ht.ids]
  obtain ⟨h1,h2,h3,h4,h5,h6,h7,h8,h9,h10,h11,h12,h13,h14,h15,h16,h17,h18⟩ := h
  obtain ⟨n1, n2, n3⟩ := hN
  have hlow : low vs (some i) = v.id := by simp [low, hv]
  by_cases hu : v.used = true
  · simp only [hu, if_true] at t1
    by_cases hl : (v.id : ℚ) < low vs x.on
    · have e : x.next vs i v = ⟨some i, x.off⟩ := by simp [Scan.next, hu, hl]
      rw [e]
      cases hx : x.off with
      | none =>
        simp only [hx, fl, Option.isSome_none] at h13
        by_cases hs : steal = 0
        · refine ⟨?sa1, ?ga1, ?_⟩
          case ga1 =>
            simp [lib_step, lib_poly, h1, h2, h12, h13, h15, h17, h18, tf, key, List.findIdx_cons, step_len n1, step_len n2, step_len n3, hi, step_read, step_index, hlen, t1, t2, l0, l1, l2, hl, hs]
            rfl
          refine ⟨⟨?_,?_,?_,?_,?_,?_,?_,?_,?_,?_,?_,?_,?_,?_,?_,?_,?_,?_⟩, ⟨?_,?_,?_,?_,?_⟩⟩ <;> simp [lib_step, hlow, ix, fl, keep, *]
        · refine ⟨?sa2, ?ga2, ?_⟩
          case ga2 =>
            simp [lib_step, lib_poly, h1, h2, h12, h13, h15, h17, h18, tf, key, List.findIdx_cons, step_len n1, step_len n2, step_len n3, hi, step_read, step_index, hlen, t1, t2, l0, l1, l2, hl, hs]
            rfl
          refine ⟨⟨?_,?_,?_,?_,?_,?_,?_,?_,?_,?_,?_,?_,?_,?_,?_,?_,?_,?_⟩, ⟨?_,?_,?_,?_,?_⟩⟩ <;> simp [lib_step, hlow, ix, fl, keep, *]
      | some j =>
        simp only [hx, fl, Option.isSome_some] at h13
        by_cases hs : steal = 0
        · refine ⟨?sa3, ?ga3, ?_⟩
          case ga3 =>
            simp [lib_step, lib_poly, h1, h2, h12, h13, h15, h17, h18, tf, key, List.findIdx_cons, step_len n1, step_len n2, step_len n3, hi, step_read, step_index, hlen, t1, t2, l0, l1, l2, hl, hs]
            rfl
          refine ⟨⟨?_,?_,?_,?_,?_,?_,?_,?_,?_,?_,?_,?_,?_,?_,?_,?_,?_,?_⟩, ⟨?_,?_,?_,?_,?_⟩⟩ <;> simp [lib_step, hlow, ix, fl, keep, *]
        · refine ⟨?sa4, ?ga4, ?_⟩
          case ga4 =>
            simp [lib_step, lib_poly, h1, h2, h12, h13, h15, h17, h18, tf, key, List.findIdx_cons, step_len n1, step_len n2, step_len n3, hi, step_read, step_index, hlen, t1, t2, l0, l1, l2, hl, hs]
            rfl
          refine ⟨⟨?_,?_,?_,?_,?_,?_,?_,?_,?_,?_,?_,?_,?_,?_,?_,?_,?_,?_⟩, ⟨?_,?_,?_,?_,?_⟩⟩ <;> simp [lib_step, hlow, ix, fl, keep, *]
    · have e : x.next vs i v = x := by simp [Scan.next, hu, hl]
      rw [e]
      cases hx : x.off with
      | none =>
        simp only [hx, fl, Option.isSome_none] at h13
        by_cases hs : steal = 0
        · refine ⟨?sb1, ?gb1, ?_⟩
          case gb1 =>
            simp [lib_step, lib_poly, h1, h2, h12, h13, h15, h17, h18, tf, key, List.findIdx_cons, step_len n1, step_len n2, step_len n3, hi, step_read, step_index, hlen, t1, t2, l0, l1, l2, hl, hs]
            rfl
          refine ⟨⟨?_,?_,?_,?_,?_,?_,?_,?_,?_,?_,?_,?_,?_,?_,?_,?_,?_,?_⟩, ⟨?_,?_,?_,?_,?_⟩⟩ <;> simp [lib_step, hlow, ix, fl, keep, *]
        · refine ⟨?sb2, ?gb2, ?_⟩
          case gb2 =>
            simp [lib_step, lib_poly, h1, h2, h12, h13, h15, h17, h18, tf, key, List.findIdx_cons, step_len n1, step_len n2, step_len n3, hi, step_read, step_index, hlen, t1, t2, l0, l1, l2, hl, hs]
            rfl
          refine ⟨⟨?_,?_,?_,?_,?_,?_,?_,?_,?_,?_,?_,?_,?_,?_,?_,?_,?_,?_⟩, ⟨?_,?_,?_,?_,?_⟩⟩ <;> simp [lib_step, hlow, ix, fl, keep, *]
      | some j =>
        simp only [hx, fl, Option.isSome_some] at h13
        by_cases hs : steal = 0
        · refine ⟨?sb3, ?gb3, ?_⟩
          case gb3 =>
            simp [lib_step, lib_poly, h1, h2, h12, h13, h15, h17, h18, tf, key, List.findIdx_cons, step_len n1, step_len n2, step_len n3, hi, step_read, step_index, hlen, t1, t2, l0, l1, l2, hl, hs]
            rfl
          refine ⟨⟨?_,?_,?_,?_,?_,?_,?_,?_,?_,?_,?_,?_,?_,?_,?_,?_,?_,?_⟩, ⟨?_,?_,?_,?_,?_⟩⟩ <;> simp [lib_step, hlow, ix, fl, keep, *]
        · refine ⟨?sb4, ?gb4, ?_⟩
          case gb4 =>
            simp [lib_step, lib_poly, h1, h2, h12, h13, h15, h17, h18, tf, key, List.findIdx_cons, step_len n1, step_len n2, step_len n3, hi, step_read, step_index, hlen, t1, t2, l0, l1, l2, hl, hs]
            rfl
          refine ⟨⟨?_,?_,?_,?_,?_,?_,?_,?_,?_,?_,?_,?_,?_,?_,?_,?_,?_,?_⟩, ⟨?_,?_,?_,?_,?_⟩⟩ <;> simp [lib_step, hlow, ix, fl, keep, *]
  · simp only [hu] at t1
    by_cases hl : (v.id : ℚ) < low vs x.off
    · have e : x.next vs i v = ⟨x.on, some i⟩ := by simp [Scan.next, hu, hl]
      rw [e]
      cases hx : x.off with
      | none =>
        simp only [hx, fl, Option.isSome_none] at h13
        by_cases hs : steal = 0
        · refine ⟨?sc1, ?gc1, ?_⟩
          case gc1 =>
            simp [lib_step, lib_poly, h1, h2, h12, h13, h15, h17, h18, tf, key, List.findIdx_cons, step_len n1, step_len n2, step_len n3, hi, step_read, step_index, hlen, t1, t2, l0, l1, l2, hl, hs]
            rfl
          refine ⟨⟨?_,?_,?_,?_,?_,?_,?_,?_,?_,?_,?_,?_,?_,?_,?_,?_,?_,?_⟩, ⟨?_,?_,?_,?_,?_⟩⟩ <;> simp [lib_step, hlow, ix, fl, keep, *]
        · refine ⟨?sc2, ?gc2, ?_⟩
          case gc2 =>
            simp [lib_step, lib_poly, h1, h2, h12, h13, h15, h17, h18, tf, key, List.findIdx_cons, step_len n1, step_len n2, step_len n3, hi, step_read, step_index, hlen, t1, t2, l0, l1, l2, hl, hs]
            rfl
          refine ⟨⟨?_,?_,?_,?_,?_,?_,?_,?_,?_,?_,?_,?_,?_,?_,?_,?_,?_,?_⟩, ⟨?_,?_,?_,?_,?_⟩⟩ <;> simp [lib_step, hlow, ix, fl, keep, *]
      | some j =>
        simp only [hx, fl, Option.isSome_some] at h13
        by_cases hs : steal = 0
        · refine ⟨?sc3, ?gc3, ?_⟩
          case gc3 =>
            simp [lib_step, lib_poly, h1, h2, h12, h13, h15, h17, h18, tf, key, List.findIdx_cons, step_len n1, step_len n2, step_len n3, hi, step_read, step_index, hlen, t1, t2, l0, l1, l2, hl, hs]
            rfl
          refine ⟨⟨?_,?_,?_,?_,?_,?_,?_,?_,?_,?_,?_,?_,?_,?_,?_,?_,?_,?_⟩, ⟨?_,?_,?_,?_,?_⟩⟩ <;> simp [lib_step, hlow, ix, fl, keep, *]
        · refine ⟨?sc4, ?gc4, ?_⟩
          case gc4 =>
            simp [lib_step, lib_poly, h1, h2, h12, h13, h15, h17, h18, tf, key, List.findIdx_cons, step_len n1, step_len n2, step_len n3, hi, step_read, step_index, hlen, t1, t2, l0, l1, l2, hl, hs]
            rfl
          refine ⟨⟨?_,?_,?_,?_,?_,?_,?_,?_,?_,?_,?_,?_,?_,?_,?_,?_,?_,?_⟩, ⟨?_,?_,?_,?_,?_⟩⟩ <;> simp [lib_step, hlow, ix, fl, keep, *]
    · have e : x.next vs i v = x := by simp [Scan.next, hu, hl]
      rw [e]
      cases hx : x.off with
      | none =>
        simp only [hx, fl, Option.isSome_none] at h13
        by_cases hs : steal = 0
        · refine ⟨?sd1, ?gd1, ?_⟩
          case gd1 =>
            simp [lib_step, lib_poly, h1, h2, h12, h13, h15, h17, h18, tf, key, List.findIdx_cons, step_len n1, step_len n2, step_len n3, hi, step_read, step_index, hlen, t1, t2, l0, l1, l2, hl, hs]
            rfl
          refine ⟨⟨?_,?_,?_,?_,?_,?_,?_,?_,?_,?_,?_,?_,?_,?_,?_,?_,?_,?_⟩, ⟨?_,?_,?_,?_,?_⟩⟩ <;> simp [lib_step, hlow, ix, fl, keep, *]
        · refine ⟨?sd2, ?gd2, ?_⟩
          case gd2 =>
            simp [lib_step, lib_poly, h1, h2, h12, h13, h15, h17, h18, tf, key, List.findIdx_cons, step_len n1, step_len n2, step_len n3, hi, step_read, step_index, hlen, t1, t2, l0, l1, l2, hl, hs]
            rfl
          refine ⟨⟨?_,?_,?_,?_,?_,?_,?_,?_,?_,?_,?_,?_,?_,?_,?_,?_,?_,?_⟩, ⟨?_,?_,?_,?_,?_⟩⟩ <;> simp [lib_step, hlow, ix, fl, keep, *]
      | some j =>
        simp only [hx, fl, Option.isSome_some] at h13
        by_cases hs : steal = 0
        · refine ⟨?sd3, ?gd3, ?_⟩
          case gd3 =>
            simp [lib_step, lib_poly, h1, h2, h12, h13, h15, h17, h18, tf, key, List.findIdx_cons, step_len n1, step_len n2, step_len n3, hi, step_read, step_index, hlen, t1, t2, l0, l1, l2, hl, hs]
            rfl
          refine ⟨⟨?_,?_,?_,?_,?_,?_,?_,?_,?_,?_,?_,?_,?_,?_,?_,?_,?_,?_⟩, ⟨?_,?_,?_,?_,?_⟩⟩ <;> simp [lib_step, hlow, ix, fl, keep, *]
        · refine ⟨?sd4, ?gd4, ?_⟩
          case gd4 =>
            simp [lib_step, lib_poly, h1, h2, h12, h13, h15, h17, h18, tf, key, List.findIdx_cons, step_len n1, step_len n2, step_len n3, hi, step_read, step_index, hlen, t1, t2, l0, l1, l2, hl, hs]
            rfl
          refine ⟨⟨?_,?_,?_,?_,?_,?_,?_,?_,?_,?_,?_,?_,?_,?_,?_,?_,?_,?_⟩, ⟨?_,?_,?_,?_,?_⟩⟩ <;> simp [lib_step, hlow, ix, fl, keep, *]

/-- looking at the voices, one after the other -/
def scan (vs : List Voice) : List Voice → Nat → Scan → Scan
  | [], _, x => x
  | v :: r, i, x => scan vs r (i + 1) (x.next vs i v)

theorem loop_run {vs : List Voice} {steal : ℚ} (hN : Names c) (hn : vs.length = n) (r : List Voice) : ∀ (i : Nat) (x : Scan) (s : St),
    vs.drop i = r → i ≤ n → s.mem 485 = [.float n] → Tabs vs s → ScanMem vs steal x s →
    ∃ s1, Ends (sys n a2 c) [((487, 0), [.float i])] s s1 ∧ ScanMem vs steal (scan vs r i x) s1 ∧ Frame keep s s1 := by
  induction r with
  | nil =>
    intro i x s hr hi h5 ht hm
    have : ¬ i < n := by
      have := congrArg List.length hr
      simp at this; omega
    refine ⟨(s.set 488 [.float i]).set 484 [.float 0], ?_, ?_, ?_⟩
    · rw [loop_on h5, if_neg this, ends_nil]
    · obtain ⟨h1,h2,h3,h4,h5,h6,h7,h8,h9,h10,h11,h12,h13,h14,h15,h16,h17,h18⟩ := hm
      refine ⟨?_,?_,?_,?_,?_,?_,?_,?_,?_,?_,?_,?_,?_,?_,?_,?_,?_,?_⟩ <;> simp [lib_step, scan, *]
    · refine ⟨?_,?_,?_,?_,?_⟩ <;> simp [lib_step, keep]
  | cons v r ih =>
    intro i x s hr hi h5 ht hm
    have hv : vs[i]? = some v := by
      have := congrArg List.head? hr
      simpa using this
    have hr' : vs.drop (i + 1) = r := by
      have := congrArg List.tail hr
      simpa using this
    have hlt : i < n := by rw [← hn]; exact (List.getElem?_eq_some_iff.mp hv).1
    have ht' : Tabs vs ((s.set 488 [.float i]).set 484 [.float 1]) := ⟨ht.1, ht.2, ht.3⟩
    have hm' : ScanMem vs steal x ((s.set 488 [.float i]).set 484 [.float 1]) := by
      obtain ⟨h1,h2,h3,h4,h5,h6,h7,h8,h9,h10,h11,h12,h13,h14,h15,h16,h17,h18⟩ := hm
      refine ⟨?_,?_,?_,?_,?_,?_,?_,?_,?_,?_,?_,?_,?_,?_,?_,?_,?_,?_⟩ <;> simp [lib_step, *]
    have hf : Frame (485 :: keep) s ((s.set 488 [.float i]).set 484 [.float 1]) := by
      refine ⟨?_,?_,?_,?_,?_⟩ <;> simp [lib_step, keep]
    obtain ⟨s1, e1, m1, f1⟩ := body_on (n := n) (a2 := a2) ht' hN hm' hv
    have f1 := hf.trans f1
    obtain ⟨s2, e2, m2, f2⟩ := ih (i + 1) _ s1 hr' hlt (by rw [f1.mem 485 (by simp), h5])
      ⟨by rw [f1.tab]; exact ht.1, by rw [f1.tab]; exact ht.2, by rw [f1.tab]; exact ht.3⟩ m1
    refine ⟨s2, ?_, m2, Frame.trans ⟨f1.1, f1.2, f1.3, f1.4, fun j hj => f1.5 j (List.mem_cons_of_mem _ hj)⟩ f2⟩
    rw [loop_on h5, if_pos hlt]
    refine ends_trans e1 ?_
    simpa [lib_step, n492, o492_0] using e2

end Verif.Lib.Poly
