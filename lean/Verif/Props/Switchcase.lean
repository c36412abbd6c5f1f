import Verif.Switchcase
import Verif.Props.Lists
/-!
C38: specification and proofs.
-/
namespace Verif.Switchcase
open Verif.Msg (R Err Val getHash IsMsg hashOf)
open Verif.Mem
open Verif.Lists (Case caseHash symbolStr)

/-! ## Specification -/

/-- the value that a case stands for: the word `bang` stands for a bang -/
def valueOf : Case → Val
  | .num f => .float f
  | .name s => if s = Hash.bangStr then .bang else .sym (s.map (BitVec.ofNat 8))

/-- the word `symbol` -/
def symbolWord : Val := .sym (symbolStr.map (BitVec.ofNat 8))

/-- the element that decides: the first one, or the one after the word `symbol` -/
def decider (vs : List Val) : Option Val := if vs.head? = some symbolWord then vs[1]? else vs[0]?

/-- the outlet for the deciding element -/
def Outlet (cases : List Case) (v : Val) (k : Nat) : Prop :=
  (∃ c, cases[k]? = some c ∧ valueOf c = v) ∨ (k = cases.length ∧ ∀ c ∈ cases, valueOf c ≠ v)

/-- names are plain text -/
def Plain : Case → Prop
  | .num _ => True
  | .name s => Hash.Ascii s ∧ s.length < 2 ^ 32

/-- the 32-bit hash tells the values of the list apart -/
def NoCollision (vs : List Val) : Prop := ∀ a ∈ vs, ∀ b ∈ vs, hashOf a = hashOf b → a = b

/-! ## Proofs -/

theorem caseHash_plain {c : Case} (h : Plain c) : caseHash c = some (hashOf (valueOf c)) := by
  cases c with
  | num f => rfl
  | name s =>
    simp only [valueOf]
    by_cases e : s = Hash.bangStr
    · subst e
      decide
    · rw [if_neg e]
      simp only [caseHash, Hash.hash_agree_partial true false s h.1 e h.2, Option.map_some]
      rw [BitVec.ofNat_toNat, BitVec.setWidth_eq]
      rfl

theorem genCases_plain {cs : List Case} (h : ∀ c ∈ cs, Plain c) (i : Nat) :
    genCases i cs = some (cs.mapIdx fun k c => ⟨some (hashOf (valueOf c)), some (i + k), true⟩) := by
  induction cs generalizing i with
  | nil => rfl
  | cons c cs ih =>
    rw [genCases, caseHash_plain (h c (by simp)), ih (fun c hc => h c (by simp [hc]))]
    simp only [bind, Option.bind_some, List.mapIdx_cons, Nat.add_zero]
    congr 2
    congr 1
    funext k c
    congr 2
    omega

theorem gen_plain {cs : List Case} (h : ∀ c ∈ cs, Plain c) :
    gen cs (outlets cs) = some ((cs.mapIdx fun k c => ⟨some (hashOf (valueOf c)), some k, true⟩) ++ [⟨none, some cs.length, true⟩]) := by
  unfold gen outlets
  rw [genCases_plain h]
  simp

theorem runFrom_dropWhile {arms : List Arm} (hb : ∀ a ∈ arms, a.brk = true) (l : Option (BitVec 32)) {k : Nat} {a : Arm}
    (hk : arms[k]? = some a) (ha : a.label = l) (hfirst : ∀ (j : Nat) (b : Arm), j < k → arms[j]? = some b → b.label ≠ l) :
    (arms.dropWhile fun a => a.label ≠ l) = arms.drop k := by
  induction arms generalizing k with
  | nil => simp at hk
  | cons b arms ih =>
    cases k with
    | zero =>
      have : b = a := by simpa using hk
      subst this
      simp [ha]
    | succ k =>
      have hb0 := hfirst 0 b (by omega) rfl
      rw [List.dropWhile_cons, if_pos (by simpa using hb0), List.drop_succ_cons]
      exact ih (fun a h => hb a (by simp [h])) (by simpa using hk) fun j b hj hjb => hfirst (j + 1) b (by omega) (by simpa using hjb)

theorem runFrom_drop {arms : List Arm} (hb : ∀ a ∈ arms, a.brk = true) {k : Nat} {a : Arm} (hk : arms[k]? = some a) :
    runFrom (arms.drop k) = a.send.toList := by
  have hlt : k < arms.length := by
    by_contra hc; rw [List.getElem?_eq_none (by omega)] at hk; cases hk
  have e : arms[k] = a := by rw [List.getElem?_eq_getElem hlt] at hk; exact Option.some.inj hk
  rw [List.drop_eq_getElem_cons hlt, runFrom, e, hb a (e ▸ List.getElem_mem hlt)]
  simp

/-- the switch in general: it calls exactly the outlet of the first case with the hash, or else the last one -/
theorem runSwitch_eq {cs : List Case} {arms : List Arm} (hp : ∀ c ∈ cs, Plain c) (hg : gen cs (outlets cs) = some arms) (h : BitVec 32) :
    (∀ (k : Nat) (c : Case), cs[k]? = some c → hashOf (valueOf c) = h → (∀ (j : Nat) (d : Case), j < k → cs[j]? = some d → hashOf (valueOf d) ≠ h) → runSwitch arms h = [k]) ∧
    ((∀ c ∈ cs, hashOf (valueOf c) ≠ h) → runSwitch arms h = [cs.length]) := by
  rw [gen_plain hp] at hg
  obtain rfl := Option.some.inj hg
  generalize harms : (cs.mapIdx fun k c => (⟨some (hashOf (valueOf c)), some k, true⟩ : Arm)) ++ [⟨none, some cs.length, true⟩] = arms
  have hb : ∀ a ∈ arms, a.brk = true := by
    intro a ha
    rw [← harms] at ha
    rcases List.mem_append.mp ha with ha | ha
    · obtain ⟨i, hi, rfl⟩ := List.mem_mapIdx.mp ha
      rfl
    · rw [List.mem_singleton.mp ha]
  have hget : ∀ k c, cs[k]? = some c → arms[k]? = some (Arm.mk (some (hashOf (valueOf c))) (some k) true) := by
    intro k c hc
    have hlt : k < cs.length := by
      by_contra hn; rw [List.getElem?_eq_none (by omega)] at hc; cases hc
    rw [← harms, List.getElem?_append_left (by simpa using hlt), List.getElem?_mapIdx, hc]
    rfl
  have hlast : arms[cs.length]? = some (Arm.mk none (some cs.length) true) := by
    rw [← harms, List.getElem?_append_right (by simp)]
    simp
  constructor
  · intro k c hc hh hf
    have e := runFrom_dropWhile hb (some h) (hget k c hc) (by rw [← hh]) (by
      intro j b hj hjb
      have hlt : k < cs.length := by
        by_contra hn; rw [List.getElem?_eq_none (by omega)] at hc; cases hc
      obtain ⟨d, hd⟩ : ∃ d, cs[j]? = some d := ⟨cs[j], List.getElem?_eq_getElem (by omega)⟩
      rw [hget j d hd] at hjb
      rw [← Option.some.inj hjb]
      exact fun e => hf j d hj hd (Option.some.inj e))
    unfold runSwitch
    simp only
    rw [e]
    have hne : arms.drop k ≠ [] := by
      intro hnil
      have := runFrom_drop hb (hget k c hc)
      rw [hnil] at this
      simp [runFrom] at this
    rw [if_neg hne, runFrom_drop hb (hget k c hc)]
    rfl
  · intro hn
    have e : (arms.dropWhile fun a => a.label ≠ some h) = [] := by
      have dw : ∀ (l : List Arm) (p : Arm → Bool), (∀ a ∈ l, p a = true) → l.dropWhile p = [] := by
        intro l p hl
        induction l with
        | nil => rfl
        | cons a l ih => rw [List.dropWhile_cons, if_pos (hl a (by simp)), ih fun b hb => hl b (by simp [hb])]
      refine dw _ _ ?_
      intro a ha
      rw [← harms] at ha
      rcases List.mem_append.mp ha with ha | ha
      · obtain ⟨i, hi, rfl⟩ := List.mem_mapIdx.mp ha
        simpa using hn _ (List.getElem_mem hi)
      · rw [List.mem_singleton.mp ha]; simp
    have e' := runFrom_dropWhile hb none hlast rfl (by
      intro j b hj hjb
      have hlt : j < cs.length := hj
      rw [hget j cs[j] (List.getElem?_eq_getElem hlt)] at hjb
      rw [← Option.some.inj hjb]
      simp)
    unfold runSwitch
    simp only
    rw [e, if_pos rfl, e', runFrom_drop hb hlast]
    rfl

theorem hash_symbolWord : hashOf symbolWord = Hash.cHash true false (symbolStr.map (BitVec.ofNat 8)) := rfl

theorem onMessage_eq {fuel : Nat} {M : Mem} {m t : Nat} {vs : List Val} (hm : IsMsg M m t vs) (hlen : ∀ s, Val.sym s ∈ vs → s.length < fuel)
    (hsym : ∀ v, vs.head? = some v → hashOf v = hashOf symbolWord → v = symbolWord) {v : Val} (hv : decider vs = some v) (arms : List Arm) :
    onMessage fuel M m arms = .ok (runSwitch arms (hashOf v)) := by
  match vs, hm, hlen, hsym, hv with
  | a :: vs, hm, hlen, hsym, hv =>
    have h0 := Msg.getHash_correct fuel M m t _ hm 0 (by simp) (fun s hs => hlen s (by simp at hs; simp [hs]))
    unfold onMessage
    rw [show (0 : Int) = ((0 : Nat) : Int) from rfl, h0]
    simp only [bind, Except.bind, List.getElem_cons_zero]
    unfold decider at hv
    by_cases e : a = symbolWord
    · subst e
      rw [if_pos hash_symbolWord]
      simp only [List.head?_cons, if_true] at hv
      match vs, hv with
      | b :: vs, hv =>
        have hb : b = v := by simpa using hv
        subst hb
        have h1 := Msg.getHash_correct fuel M m t _ hm 1 (by simp) (fun s hs => hlen s (by simp at hs; simp [hs]))
        rw [show (1 : Int) = ((1 : Nat) : Int) from rfl, h1]
        rfl
    · have hne : hashOf a ≠ Hash.cHash true false (symbolStr.map (BitVec.ofNat 8)) := fun h => e (hsym a rfl h)
      rw [if_neg hne]
      have hv : v = a := by simpa [e] using hv.symm
      subst hv
      rw [h0]
      rfl

/-! ## C38 -/

/-- A message goes to exactly one outlet: that of the case its deciding element is equal to, or the last one if there is no
such case — as long as the 32-bit hashes of the case values, of the deciding element and of the word `symbol` do not collide. -/
theorem switchcase_exactly_one_partial {fuel : Nat} {M : Mem} {m t : Nat} {vs : List Val} (hm : IsMsg M m t vs)
    (hlen : ∀ s, Val.sym s ∈ vs → s.length < fuel) {cs : List Case} {arms : List Arm} (hp : ∀ c ∈ cs, Plain c)
    (hg : gen cs (outlets cs) = some arms) {v : Val} (hv : decider vs = some v)
    (hnc : NoCollision (symbolWord :: v :: vs.take 1 ++ cs.map valueOf)) :
    ∃ k, onMessage fuel M m arms = .ok [k] ∧ Outlet cs v k := by
  rw [onMessage_eq hm hlen (fun a ha h => hnc a (by cases vs <;> simp_all) symbolWord (by simp) h) hv]
  obtain ⟨h1, h2⟩ := runSwitch_eq hp hg (hashOf v)
  by_cases hc : ∃ c ∈ cs, valueOf c = v
  · -- the first such case
    have : ∃ (k : Nat) (c : Case), cs[k]? = some c ∧ valueOf c = v ∧ ∀ (j : Nat) d, j < k → cs[j]? = some d → valueOf d ≠ v := by
      clear h1 h2 hp hg hnc
      induction cs with
      | nil => simp at hc
      | cons c cs ih =>
        by_cases e : valueOf c = v
        · exact ⟨0, c, rfl, e, fun j d hj => by omega⟩
        · have hc : ∃ c ∈ cs, valueOf c = v := by
            obtain ⟨d, hd, hdv⟩ := hc
            rcases List.mem_cons.mp hd with rfl | hd
            · exact absurd hdv e
            · exact ⟨d, hd, hdv⟩
          obtain ⟨k, d, hk, hd, hf⟩ := ih hc
          refine ⟨k + 1, d, by simpa using hk, hd, fun j x hj hx => ?_⟩
          cases j with
          | zero =>
            have : c = x := by simpa using hx
            exact this ▸ e
          | succ j => exact hf j x (by omega) (by simpa using hx)
    obtain ⟨k, c, hk, hcv, hf⟩ := this
    refine ⟨k, congrArg _ (h1 k c hk (by rw [hcv]) ?_), .inl ⟨c, hk, hcv⟩⟩
    intro j d hj hd hh
    exact hf j d hj hd (hnc _ (by simp only [List.cons_append, List.mem_cons, List.mem_append, List.mem_map]; exact .inr (.inr (.inr ⟨d, List.mem_of_getElem? hd, rfl⟩))) v (by simp) hh)
  · have hn : ∀ c ∈ cs, valueOf c ≠ v := fun c hc' e => hc ⟨c, hc', e⟩
    refine ⟨cs.length, congrArg _ (h2 ?_), .inr ⟨rfl, hn⟩⟩
    intro c hc' hh
    exact hn c hc' (hnc _ (by simp only [List.cons_append, List.mem_cons, List.mem_append, List.mem_map]; exact .inr (.inr (.inr ⟨c, hc', rfl⟩))) v (by simp) hh)

/-- Without that assumption: still exactly one outlet is called for every message (if the code compiles or not), and never one
outside the object. -/
theorem switchcase_one_outlet {cs : List Case} {arms : List Arm} (hp : ∀ c ∈ cs, Plain c) (hg : gen cs (outlets cs) = some arms) (h : BitVec 32) :
    ∃ k < outlets cs, runSwitch arms h = [k] := by
  obtain ⟨h1, h2⟩ := runSwitch_eq hp hg h
  by_cases hc : ∃ c ∈ cs, hashOf (valueOf c) = h
  · have : ∃ (k : Nat) (c : Case), cs[k]? = some c ∧ hashOf (valueOf c) = h ∧ ∀ (j : Nat) (d : Case), j < k → cs[j]? = some d → hashOf (valueOf d) ≠ h := by
      clear h1 h2 hp hg
      induction cs with
      | nil => simp at hc
      | cons c cs ih =>
        by_cases e : hashOf (valueOf c) = h
        · exact ⟨0, c, rfl, e, fun j d hj => by omega⟩
        · have hc : ∃ c ∈ cs, hashOf (valueOf c) = h := by
            obtain ⟨d, hd, hdv⟩ := hc
            rcases List.mem_cons.mp hd with rfl | hd
            · exact absurd hdv e
            · exact ⟨d, hd, hdv⟩
          obtain ⟨k, d, hk, hd, hf⟩ := ih hc
          refine ⟨k + 1, d, by simpa using hk, hd, fun j x hj hx => ?_⟩
          cases j with
          | zero =>
            have : c = x := by simpa using hx
            exact this ▸ e
          | succ j => exact hf j x (by omega) (by simpa using hx)
    obtain ⟨k, c, hk, hcv, hf⟩ := this
    have hlt : k < cs.length := by
      by_contra hn; rw [List.getElem?_eq_none (by omega)] at hk; cases hk
    exact ⟨k, by unfold outlets; omega, h1 k c hk hcv hf⟩
  · exact ⟨cs.length, by unfold outlets; omega, h2 fun c hc' e => hc ⟨c, hc', e⟩⟩

/-- Finding: for every name there is a number that goes to its outlet — the one whose bit pattern is the hash of the name. -/
theorem number_taken_for_name {s : List Nat} (hs : Plain (.name s)) {fuel : Nat} {M : Mem} {m t : Nat}
    (hm : IsMsg M m t [.float (hashOf (valueOf (.name s)))]) (hne : hashOf (valueOf (.name s)) ≠ hashOf symbolWord) :
    ∃ arms, gen [.name s] 2 = some arms ∧ onMessage fuel M m arms = .ok [0] ∧
      Outlet [.name s] (.float (hashOf (valueOf (.name s)))) 1 := by
  have hp : ∀ c ∈ [Case.name s], Plain c := by simpa using hs
  refine ⟨_, gen_plain hp, ?_, .inr ⟨rfl, ?_⟩⟩
  · rw [onMessage_eq hm (by simp) (v := .float (hashOf (valueOf (.name s))))]
    · exact congrArg _ ((runSwitch_eq hp (gen_plain hp) _).1 0 (.name s) rfl rfl (fun j d hj => by omega))
    · intro v hv h
      have : Val.float (hashOf (valueOf (.name s))) = v := by simpa using hv
      subst this
      exact absurd h hne
    · simp [decider, symbolWord]
  · intro c hc
    rw [List.mem_singleton.mp hc]
    generalize hashOf (valueOf (.name s)) = x
    simp only [valueOf]
    split <;> simp

/-- for `[select a]` that number is an ordinary one, not a NaN -/
example : hashOf (valueOf (.name [97])) ≠ hashOf symbolWord ∧ Msg.isNaN (hashOf (valueOf (.name [97]))) = false := by decide

/-- Finding: the case `symbol` never sees a message that starts with the word `symbol`, unless it is `symbol symbol`. -/
theorem case_symbol_unreachable {fuel : Nat} {M : Mem} {m t : Nat} {v : Val} {vs : List Val} (hm : IsMsg M m t (symbolWord :: v :: vs))
    (hlen : ∀ s, Val.sym s ∈ symbolWord :: v :: vs → s.length < fuel) (hv : hashOf v ≠ hashOf symbolWord) :
    ∃ arms, gen [.name symbolStr] 2 = some arms ∧ onMessage fuel M m arms = .ok [1] := by
  have hp : ∀ c ∈ [Case.name symbolStr], Plain c := by
    intro c hc
    rw [List.mem_singleton.mp hc]
    exact ⟨by unfold Hash.Ascii; decide, by decide⟩
  refine ⟨_, gen_plain hp, ?_⟩
  rw [onMessage_eq hm hlen (fun a ha _ => by simpa using ha.symm) (v := v) (by simp [decider])]
  rw [(runSwitch_eq hp (gen_plain hp) _).2]
  · rfl
  · intro c hc
    rw [List.mem_singleton.mp hc]
    have : valueOf (.name symbolStr) = symbolWord := by decide
    rw [this]
    exact hv.symm

theorem arms_labels {cs : List Case} {arms : List Arm} (hp : ∀ c ∈ cs, Plain c) (hg : gen cs (outlets cs) = some arms) :
    arms.map (·.label) = (cs.map fun c => some (hashOf (valueOf c))) ++ [none] := by
  rw [gen_plain hp] at hg
  obtain rfl := Option.some.inj hg
  rw [List.map_append, List.mapIdx_eq_zipIdx_map, List.map_map]
  congr 1
  apply List.ext_getElem (by simp)
  intro i h1 h2
  simp

/-- The generated code compiles exactly if no two cases have the same hash: two different spellings of one number, such as
`1` and `1.0`, are not compiled. -/
theorem compiles_iff {cs : List Case} {arms : List Arm} (hp : ∀ c ∈ cs, Plain c) (hg : gen cs (outlets cs) = some arms) :
    Compiles arms ↔ (cs.map fun c => hashOf (valueOf c)).Nodup := by
  unfold Compiles
  rw [arms_labels hp hg]
  induction cs with
  | nil => simp
  | cons c cs ih =>
    simp only [List.map_cons, List.cons_append, List.nodup_cons, List.mem_append, List.mem_map, List.mem_singleton, reduceCtorEq, or_false, Option.some.injEq]
    have ih : ((cs.map fun c => some (hashOf (valueOf c))) ++ [none]).Nodup ↔ (cs.map fun c => hashOf (valueOf c)).Nodup := by
      clear ih hp hg
      induction cs with
      | nil => simp
      | cons c cs ih =>
        simp only [List.map_cons, List.cons_append, List.nodup_cons, List.mem_append, List.mem_map, List.mem_singleton, reduceCtorEq, or_false, Option.some.injEq, ih]
    rw [ih]

/-- a concrete case: `[route 1 ab bang]` -/
example : ∃ arms, gen [.num 0x3F800000#32, .name [97, 98], .name Hash.bangStr] 4 = some arms ∧ Compiles arms ∧
    runSwitch arms (hashOf (.sym [97#8, 98#8])) = [1] ∧ runSwitch arms (hashOf .bang) = [2] ∧ runSwitch arms (hashOf (.float 0#32)) = [3] ∧
    NoCollision (symbolWord :: .sym [97#8, 98#8] :: [Val.sym [97#8, 98#8]].take 1 ++ [Case.num 0x3F800000#32, .name [97, 98], .name Hash.bangStr].map valueOf) := by
  refine ⟨_, rfl, by unfold Compiles; decide, by decide, by decide, by decide, ?_⟩
  unfold NoCollision
  decide

end Verif.Switchcase
