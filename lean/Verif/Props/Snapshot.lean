import Verif.Snapshot
import Mathlib.Data.Fintype.Basic
import Mathlib.Tactic.FinCases
import Mathlib.Tactic.Ring
import Mathlib.Tactic.NormNum
/-!
C61: `[snapshot~]` answers every bang with the sample of its time.
C62: `[sig~]` is the last number it got, and constants are constant, in every build.
-/
namespace Verif.Snapshot
open Verif.Simd (V)

/-! ### snapshot~ -/

/-- The specification: a vector of `N` samples beginning at `k * N` in which bangs arrive at the times `bangs` is answered
once, at the start of the next vector, by the sample at the time of the last of them. -/
def answer {α : Type} (N : Nat) (x : Nat → α) (k : Nat) (bangs : List Nat) : Option (Nat × α) :=
  bangs.getLast?.map fun t => ((k + 1) * N, x t)

/-- the bangs of each vector from `k` on lie in it, and 32 bits suffice for the times -/
def InTime (N : Nat) : Nat → List (List Nat) → Prop
  | _, [] => True
  | k, bs :: rest => (∀ t ∈ bs, k * N ≤ t ∧ t < (k + 1) * N ∧ (k + 1) * N < 2 ^ 32) ∧ InTime N (k + 1) rest

/-- the answers of all vectors from `k` on -/
def answers {α : Type} (N : Nat) (x : Nat → α) : Nat → List (List Nat) → List (Option (Nat × α))
  | _, [] => []
  | k, bs :: rest => answer N x k bs :: answers N x (k + 1) rest

variable {α : Type}

theorem foldl_onMessage (bs : List (BitVec 32)) (o : Sample) :
    bs.foldl Sample.onMessage o = match bs.getLast? with | some t => ⟨t⟩ | none => o := by
  induction bs generalizing o with
  | nil => rfl
  | cons b bs ih =>
    rw [List.foldl_cons, ih]
    cases bs with
    | nil => rfl
    | cons c cs => rw [List.getLast?_cons_cons]; cases h : (c :: cs).getLast? with
      | none => simp at h
      | some t => rfl

theorem mask_mod (t : Nat) (j : Nat) (hj : j ≤ 3) (ht : t < 2 ^ 32) :
    (BitVec.ofNat 32 t &&& BitVec.ofNat 32 (2 ^ j - 1)).toNat = t % 2 ^ j := by
  have h8 : 2 ^ j ≤ 2 ^ 3 := Nat.pow_le_pow_right (by omega) hj
  rw [BitVec.toNat_and, BitVec.toNat_ofNat, BitVec.toNat_ofNat, Nat.mod_eq_of_lt ht,
    Nat.mod_eq_of_lt (a := 2 ^ j - 1) (by omega), Nat.and_two_pow_sub_one_eq_mod]

/-- **Every vector in which a bang arrives is answered exactly once**, at the start of the next vector, with the very
sample of the signal at the time of the (last) bang, for every signal, every history and every vector size; a vector
without bang is not answered. -/
theorem snapshot_answers (x : Nat → α) (j : Nat) (hj : j ≤ 3) [NeZero (2 ^ j)] (k : Nat) (hist : List (List Nat))
    (ht : InTime (2 ^ j) k hist) :
    (Sample.run (N := 2 ^ j) x k Sample.init (hist.map (fun bs => bs.map (BitVec.ofNat 32)))).map
      (fun r => r.map fun (p : BitVec 32 × α) => (p.1.toNat, p.2))
    = answers (2 ^ j) x k hist := by
  have hpos : 0 < 2 ^ j := Nat.two_pow_pos j
  induction hist generalizing k with
  | nil => rfl
  | cons bs rest ih =>
    obtain ⟨h1, h2⟩ := ht
    have hv : (Sample.init.vector (bs.map (BitVec.ofNat 32)) (Verif.Simd.block (2 ^ j) x k)).1 = Sample.init
        ∧ (Sample.init.vector (bs.map (BitVec.ofNat 32)) (Verif.Simd.block (2 ^ j) x k)).2.map
            (fun (p : BitVec 32 × α) => (p.1.toNat, p.2)) = answer (2 ^ j) x k bs := by
      rw [Sample.vector, foldl_onMessage, List.getLast?_map]
      cases hl : bs.getLast? with
      | none => exact ⟨rfl, by rw [answer, hl]; rfl⟩
      | some t =>
        obtain ⟨a1, a2, a3⟩ := h1 t (List.mem_of_getLast? hl)
        have hk1 : (k + 1) * 2 ^ j = k * 2 ^ j + 2 ^ j := Nat.succ_mul _ _
        have hn : BitVec.ofNat 32 t ≠ null := by
          intro h
          have := congrArg BitVec.toNat h
          rw [BitVec.toNat_ofNat, Nat.mod_eq_of_lt (by omega)] at this
          have hnull : null.toNat = 2 ^ 32 - 1 := by decide
          omega
        have hlane : t % 2 ^ j = t - k * 2 ^ j := by
          have e : t = (t - k * 2 ^ j) + k * 2 ^ j := by omega
          calc t % 2 ^ j = ((t - k * 2 ^ j) + k * 2 ^ j) % 2 ^ j := by rw [← e]
            _ = (t - k * 2 ^ j) % 2 ^ j := Nat.add_mul_mod_self_right _ _ _
            _ = t - k * 2 ^ j := Nat.mod_eq_of_lt (by omega)
        have hm := mask_mod t j hj (by omega)
        simp only [Option.map_some, Sample.process, if_pos hn]
        refine ⟨rfl, ?_⟩
        rw [answer, hl]
        simp only [Option.map_some, Option.some.injEq, Prod.mk.injEq]
        have h8 : 2 ^ j ≤ 2 ^ 3 := Nat.pow_le_pow_right (by omega) hj
        constructor
        · have hr := Verif.Sched.roundDown_toNat (BitVec.ofNat 32 t + BitVec.ofNat 32 (2 ^ j)) j (by omega)
          rw [Verif.Sched.roundDown] at hr
          rw [hr]
          have hs : (BitVec.ofNat 32 t + BitVec.ofNat 32 (2 ^ j)).toNat = (t + 2 ^ j) % 2 ^ 32 := by
            rw [BitVec.toNat_add, BitVec.toNat_ofNat, BitVec.toNat_ofNat, Nat.mod_eq_of_lt (a := t) (by omega),
              Nat.mod_eq_of_lt (a := 2 ^ j) (by omega)]
          -- the sum stays below 2^32: the vector after the next begins at most there
          have hdvd : 2 ^ j ∣ 2 ^ 32 := Nat.pow_dvd_pow 2 (by omega)
          have hfit : (k + 1) * 2 ^ j + 2 ^ j ≤ 2 ^ 32 := by
            obtain ⟨q, hq⟩ := hdvd
            have hlt : k + 1 < q := by
              apply Nat.lt_of_mul_lt_mul_left (a := 2 ^ j)
              rw [← hq, Nat.mul_comm]; exact a3
            calc (k + 1) * 2 ^ j + 2 ^ j = (k + 2) * 2 ^ j := by rw [← Nat.succ_mul]
              _ ≤ q * 2 ^ j := Nat.mul_le_mul_right _ (by omega)
              _ = 2 ^ 32 := by rw [Nat.mul_comm, ← hq]
          rw [hs, Nat.mod_eq_of_lt (a := t + 2 ^ j) (by omega), Nat.add_mod_right, hlane]
          omega
        · show x (k * 2 ^ j + (Fin.ofNat (2 ^ j) _).val) = x t
          rw [Fin.val_ofNat, hm, Nat.mod_mod, hlane]
          congr 1; omega
    show _ :: List.map _ (Sample.run x (k + 1) _ _) = _
    rw [hv.1, ih (k + 1) h2]
    exact congrArg (· :: answers (2 ^ j) x (k + 1) rest) hv.2

/-- A bang at the time 2^32 - 1 is never answered: that number means "no bang". -/
theorem snapshot_loses_last_tick (o : Sample) (N : Nat) [NeZero N] (bIn : V N α) :
    ((o.onMessage (BitVec.ofNat 32 (2 ^ 32 - 1))).process bIn).2 = none := by
  simp [Sample.onMessage, Sample.process, null]

/-- two bangs in the vector from 4 to 7, none in the next, one at 13: for the signal `t ↦ 10 t` the answers are 60 at
time 8 and 130 at time 16 -/
example : answers 4 (fun t => 10 * t) 1 [[4, 6], [], [13]] = [some (8, 60), none, some (16, 130)]
    ∧ InTime 4 1 [[4, 6], [], [13]] := by
  refine ⟨rfl, ?_⟩
  simp [InTime]

example : (Sample.run (N := 2 ^ 2) (fun t => 10 * t) 1 Sample.init
    ([[4, 6], [], [13]].map (fun bs => bs.map (BitVec.ofNat 32)))).map
      (fun r => r.map fun (p : BitVec 32 × Nat) => (p.1.toNat, p.2)) = [some (8, 60), none, some (16, 130)] := by
  rw [snapshot_answers (fun t => 10 * t) 2 (by omega) 1 _ (by simp [InTime])]; rfl

/-! ### sig~ -/

/-- the number last sent: the first element of the last message that begins with one; `k` before -/
def lastNumber (k : α) : List (List (Elem α)) → α
  | [] => k
  | (.float x :: _) :: ms => lastNumber x ms
  | _ :: ms => lastNumber k ms

/-- no message has a number as its second element -/
def Singles (ms : List (List (Elem α))) : Prop := ∀ m ∈ ms, ∀ x : α, m[1]? ≠ some (.float x)

theorem varUpdate_lane [CommRing α] (b : Build) (k step : α) (r : Bool) (i : Fin b.lanes) :
    varUpdate b k step r i =
      match b with
      | .none => k
      | _ => k + ((if r then b.lanes - 1 - i.val else i.val : Nat) : α) * step := by
  cases b <;> cases r <;> fin_cases i <;>
    simp [varUpdate, set4, setr4, set8, setr8, Build.lanes, add_comm]

theorem varUpdate_const [CommRing α] (b : Build) (k : α) (r : Bool) : varUpdate b k 0 r = fun _ => k := by
  funext i
  rw [varUpdate_lane]
  cases b <;> simp

/-- **`[sig~ k]`**: after every history of messages of one number (and of bangs and symbols), at every sample of the
vector and in every build, the output is the last number sent, at first `k`. -/
theorem sig_is_last_number [CommRing α] (b : Build) (k : α) (ms : List (List (Elem α))) (h : Singles ms) (i : Fin b.lanes) :
    varAfter b k 0 false ms i = lastNumber k ms := by
  have main : ∀ (ms : List (List (Elem α))), Singles ms → ∀ k : α,
      ms.foldl (varOnMessage b) (fun _ => k) = fun _ => lastNumber k ms := by
    intro ms
    induction ms with
    | nil => intro _ k; rfl
    | cons m ms ih =>
      intro h k
      have hm := h m (by simp)
      have hr : Singles ms := fun m' hm' => h m' (by simp [hm'])
      rw [List.foldl_cons]
      match m, hm with
      | [], _ => exact ih hr k
      | .other :: _, _ => exact ih hr k
      | .float x :: rest, hm =>
        have e : varOnMessage b (fun _ => k) (.float x :: rest) = fun _ => x := by
          match rest, hm with
          | [], _ => exact varUpdate_const b x _
          | .other :: _, _ => exact varUpdate_const b x _
          | .float y :: _, hm => exact absurd rfl (hm y)
        rw [e]; exact ih hr x
  rw [varAfter, varUpdate_const, main ms h k]

/-- A message of two numbers is a ramp within each vector, which begins anew in the next one; in the scalar build it is
constant.  So a list sent to `[sig~]` sounds different in different builds. -/
theorem sig_list_is_ramp [CommRing α] (b : Build) (v : V b.lanes α) (x s : α) (i : Fin b.lanes) :
    varOnMessage b v [.float x, .float s] i = (match b with | .none => x | _ => x + (i.val : α) * s) := by
  show varUpdate b x s false i = _
  rw [varUpdate_lane]
  cases b <;> simp

/-! ### constants -/

/-- **Constant signals** (`__var_k~f`): `k` at every sample in every build when there is no step; with a step, `k`,
`k + step`, … along the vector, or the other way round, and only `k` in the scalar build. -/
theorem var_k_lanes [CommRing α] [DecidableEq α] (b : Build) (k step : α) (r : Bool) (i : Fin b.lanes) :
    varKProcess b k step r i =
      match b with
      | .none => k
      | _ => k + ((if r then b.lanes - 1 - i.val else i.val : Nat) : α) * step := by
  unfold varKProcess
  split
  · rename_i h
    rw [h.1, h.2]
    cases b <;> simp [Verif.Simd.zero]
  · cases b <;> cases r <;> fin_cases i <;> simp [varKMacro, set4, set8, Build.lanes]

theorem var_k_constant [CommRing α] [DecidableEq α] (b : Build) (k : α) (r : Bool) (i : Fin b.lanes) :
    varKProcess b k 0 r i = k := by
  rw [var_k_lanes]
  cases b <;> simp

example : varAfter (α := Int) .avx 3 0 false [[.float 5], [.other], [.float 7, .other]] 6 = 7 :=
  sig_is_last_number .avx 3 _ (by intro m hm x; simp at hm; rcases hm with rfl | rfl | rfl <;> simp) 6

end Verif.Snapshot
