import Verif.Channels
/-!
# C97: the channels of a program are those of the patch
-/
namespace Verif.Channels

/-- the object is in the patch, in a subpatch at any depth -/
inductive InPatch (o : Obj) : Graph → Prop
  | here {objs subs} (h : o ∈ objs) : InPatch o (.mk objs subs)
  | sub {objs subs g} (h : g ∈ subs) (i : InPatch o g) : InPatch o (.mk objs subs)

mutual
theorem mem_channelSet (f : Obj → List Int) (c : Int) : ∀ g : Graph, c ∈ channelSet f g ↔ ∃ o, InPatch o g ∧ c ∈ f o
  | .mk objs subs => by
    rw [channelSet, List.mem_append, List.mem_flatMap, mem_channelSets f c subs]
    constructor
    · rintro (⟨o, h, hc⟩ | ⟨g, h, o, i, hc⟩)
      · exact ⟨o, .here h, hc⟩
      · exact ⟨o, .sub h i, hc⟩
    · rintro ⟨o, i, hc⟩
      cases i with
      | here h => exact .inl ⟨o, h, hc⟩
      | sub h i => exact .inr ⟨_, h, o, i, hc⟩
theorem mem_channelSets (f : Obj → List Int) (c : Int) : ∀ gs : List Graph, c ∈ channelSets f gs ↔ ∃ g ∈ gs, ∃ o, InPatch o g ∧ c ∈ f o
  | [] => by simp [channelSets]
  | g :: gs => by
    rw [channelSets, List.mem_append, mem_channelSet f c g, mem_channelSets f c gs]
    constructor
    · rintro (h | ⟨g', h, h'⟩)
      · exact ⟨g, by simp, h⟩
      · exact ⟨g', by simp [h], h'⟩
    · rintro ⟨g', h, h'⟩
      rcases List.mem_cons.1 h with rfl | h
      · exact .inl h'
      · exact .inr ⟨g', h, h'⟩
end

theorem le_count {l : List Int} {c : Int} (h : c ∈ l) : c ≤ count l := by
  unfold count
  cases hm : l.max? with
  | none => rw [List.max?_eq_none_iff.1 hm] at h; simp at h
  | some m => exact (List.max?_eq_some_iff.1 hm).2 c h

theorem count_mem {l : List Int} (h : l ≠ []) : count l ∈ l := by
  unfold count
  cases hm : l.max? with
  | none => exact absurd (List.max?_eq_none_iff.1 hm) h
  | some m => exact (List.max?_eq_some_iff.1 hm).1

theorem count_nil : count [] = 0 := rfl

theorem mem_declared {f : Obj → List Int} {g : Graph} {c : Int} (h : c ∈ channelSet f g) (h1 : 1 ≤ c) : buffer c ∈ declared f g := by
  have := le_count h
  unfold declared buffer
  refine List.mem_map.2 ⟨(c - 1).toNat, List.mem_range.2 (by omega), ?_⟩
  show (((c - 1).toNat : Nat) : Int) = c - 1
  omega

/-- **C97** every channel that an `[adc~]` or `[dac~]` anywhere in the patch uses is a channel of the program -/
theorem inputs_declared {g : Graph} {l : List Int} (h : InPatch (.adc l) g) {c : Int} (hc : c ∈ l) (h1 : 1 ≤ c) : buffer c ∈ declared ins g :=
  mem_declared ((mem_channelSet _ _ _).2 ⟨_, h, hc⟩) h1

/-- **C97** the same for outputs -/
theorem outputs_declared {g : Graph} {l : List Int} (h : InPatch (.dac l) g) {c : Int} (hc : c ∈ l) (h1 : 1 ≤ c) : buffer c ∈ declared outs g :=
  mem_declared ((mem_channelSet _ _ _).2 ⟨_, h, hc⟩) h1

/-- **C97** the number of inputs is the largest channel of an `[adc~]`; without `[adc~]` there is none -/
theorem inputs_number (g : Graph) :
    (∃ l, InPatch (.adc l) g ∧ count (channelSet ins g) ∈ l ∧ ∀ l', InPatch (.adc l') g → ∀ c ∈ l', c ≤ count (channelSet ins g)) ∨
    (count (channelSet ins g) = 0 ∧ ∀ l, InPatch (.adc l) g → l = []) := by
  by_cases h : channelSet ins g = []
  · refine .inr ⟨by rw [h]; rfl, fun l hl => List.eq_nil_iff_forall_not_mem.2 fun c hc => ?_⟩
    have : c ∈ channelSet ins g := (mem_channelSet _ _ _).2 ⟨_, hl, hc⟩
    rw [h] at this
    simp at this
  · obtain ⟨o, i, ho⟩ := (mem_channelSet _ _ _).1 (count_mem h)
    cases o with
    | adc l => exact .inl ⟨l, i, ho, fun l' i' c hc => le_count ((mem_channelSet _ _ _).2 ⟨_, i', hc⟩)⟩
    | dac l => simp [ins] at ho
    | other => simp [ins] at ho

/-- **C97** the same for outputs -/
theorem outputs_number (g : Graph) :
    (∃ l, InPatch (.dac l) g ∧ count (channelSet outs g) ∈ l ∧ ∀ l', InPatch (.dac l') g → ∀ c ∈ l', c ≤ count (channelSet outs g)) ∨
    (count (channelSet outs g) = 0 ∧ ∀ l, InPatch (.dac l) g → l = []) := by
  by_cases h : channelSet outs g = []
  · refine .inr ⟨by rw [h]; rfl, fun l hl => List.eq_nil_iff_forall_not_mem.2 fun c hc => ?_⟩
    have : c ∈ channelSet outs g := (mem_channelSet _ _ _).2 ⟨_, hl, hc⟩
    rw [h] at this
    simp at this
  · obtain ⟨o, i, ho⟩ := (mem_channelSet _ _ _).1 (count_mem h)
    cases o with
    | dac l => exact .inl ⟨l, i, ho, fun l' i' c hc => le_count ((mem_channelSet _ _ _).2 ⟨_, i', hc⟩)⟩
    | adc l => simp [outs] at ho
    | other => simp [outs] at ho

/-- **C97** no two channels share a buffer -/
theorem buffers_differ {c d : Int} (h : buffer c = buffer d) : c = d := by
  unfold buffer at h; omega

namespace Example

/-- a patch with `[dac~]`, and in a subpatch of a subpatch `[dac~ 4]` and `[adc~ 3]` -/
def patch : Graph := .mk [.dac (ofArgs []), .other] [.mk [.other] [.mk [.dac (ofArgs [4]), .adc (ofArgs [3])] []]]

theorem four : count (channelSet outs patch) = 4 ∧ count (channelSet ins patch) = 3 ∧ declared outs patch = [0, 1, 2, 3] ∧
    declared ins patch = [0, 1, 2] := by
  refine ⟨?_, ?_, ?_, ?_⟩ <;> rfl

theorem meets : InPatch (.dac [4]) patch ∧ buffer 4 ∈ declared outs patch :=
  have h : InPatch (.dac [4]) patch := .sub (List.mem_cons_self ..) (.sub (List.mem_cons_self ..) (.here (List.mem_cons_self ..)))
  ⟨h, outputs_declared h (by simp) (by decide)⟩

/-- **C97, negative** `[dac~ 0]` is accepted; its buffer is `O-1`, which is not declared (the C++ does not compile) -/
theorem zero : buffer 0 = -1 ∧ declared outs (.mk [.dac (ofArgs [0])] []) = [] := ⟨rfl, rfl⟩

end Example

end Verif.Channels
