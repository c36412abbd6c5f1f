import Verif.PdFile
import Mathlib.Data.List.Nodup
import Mathlib.Data.List.Perm.Subperm

/-! C90: the canvases of a Pd file are read as Pd numbers their boxes, at every depth. -/

namespace Verif.PdFile

/-! ### The specification: a patch, and the file that Pd writes for it -/

/-- A box of a patch.  `skip`: statements that describe no box (`#X f`, `#A`).  `sub`: a subpatch or, with a number, the notation
`[pd @hv_obj type …]` of a Heavy object; the text of its `#N canvas`, its boxes and cables, and the statements after them. -/
inductive Box
  | arg (n : Nat)
  | box (n : Nat)
  | skip
  | sub (key : Nat) (native : Option Nat) (boxes : List Box) (cables : List Cable) (after : Nat)

mutual
/-- What Pd writes: the boxes in their order, a subpatch as a canvas that ends with `#X restore`. -/
def Box.write : Box → List Stmt
  | .arg n => [.arg n]
  | .box n => [.box n]
  | .skip => [.skip]
  | .sub k o bs cs t => .canvas k k :: (writeAll bs ++ (cs.map .connect ++ (List.replicate t .skip ++
      [match o with | none => .restore | some n => .native n])))
def writeAll : List Box → List Stmt
  | [] => []
  | b :: bs => b.write ++ writeAll bs
end

/-- the file of a patch -/
def write (key : Nat) (bs : List Box) (cs : List Cable) (t : Nat) : List Stmt :=
  .canvas key key :: (writeAll bs ++ (cs.map .connect ++ List.replicate t .skip))

mutual
/-- The objects that stand for a box; `A` tells the arguments of the subpatches. -/
def Box.nodes (A : Nat → List Nat) : Box → List Node
  | .arg n => [.leaf n]
  | .box n => [.leaf n]
  | .skip => []
  | .sub _ (some n) _ _ _ => [.leaf n]
  | .sub k none bs cs _ => [.graph (A k) (nodesAll A bs) cs]
def nodesAll (A : Nat → List Nat) : List Box → List Node
  | [] => []
  | b :: bs => b.nodes A ++ nodesAll A bs
end

/-- Is it a box that Pd counts? -/
def Box.counts : Box → Bool
  | .skip => false
  | _ => true

/-- A cable joins two boxes of the canvas. -/
def Joins (bs : List Box) (c : Cable) : Prop :=
  c.src < (bs.filter Box.counts).length ∧ c.dst < (bs.filter Box.counts).length

mutual
/-- All cables join boxes of their canvas, and no canvas has the same `#N canvas` line as one around it. -/
def Box.Ok : List Nat → Box → Prop
  | path, .sub k _ bs cs _ => k ∉ path ∧ (∀ c ∈ cs, Joins bs c) ∧ AllOk (k :: path) bs
  | _, _ => True
def AllOk : List Nat → List Box → Prop
  | _, [] => True
  | path, b :: bs => b.Ok path ∧ AllOk path bs
end

/-- The `@hv_arg` comments that are directly in a canvas. -/
def args (bs : List Box) : List Nat := bs.filterMap fun b => match b with
  | .arg n => some n
  | _ => none

mutual
def Box.keys : Box → List Nat
  | .sub k _ bs _ _ => k :: keysAll bs
  | _ => []
def keysAll : List Box → List Nat
  | [] => []
  | b :: bs => b.keys ++ keysAll bs
end

/-! ### The canvases -/

variable {dict : List (Nat × List Nat)} {A : Nat → List Nat}

/-- With any sufficient number of rounds the loop ends with `r`. -/
def Goes (dict : List (Nat × List Nat)) (p : Part) (xs : List Stmt) (r : Node × List Stmt) : Prop :=
  ∀ k, xs.length < k → loop dict k p xs = some r

theorem Goes.leaf {p : Part} {xs : List Stmt} {r : Node × List Stmt} {n : Nat}
    (h : Goes dict { p with nodes := p.nodes ++ [.leaf n] } xs r) :
    Goes dict p (.box n :: xs) r ∧ Goes dict p (.arg n :: xs) r := by
  constructor <;> intro k hk <;> obtain ⟨k, rfl⟩ : ∃ j, k = j + 1 := ⟨k - 1, by simp at hk; omega⟩ <;>
    exact h k (by simpa using hk)

theorem Goes.skip {p : Part} {xs : List Stmt} {r : Node × List Stmt} (h : Goes dict p xs r) : Goes dict p (.skip :: xs) r := by
  intro k hk
  obtain ⟨k, rfl⟩ : ∃ j, k = j + 1 := ⟨k - 1, by simp at hk; omega⟩
  exact h k (by simpa using hk)

theorem Goes.skips {p : Part} {xs : List Stmt} {r : Node × List Stmt} (h : Goes dict p xs r) :
    ∀ t, Goes dict p (List.replicate t .skip ++ xs) r
  | 0 => h
  | t + 1 => by rw [List.replicate_succ, List.cons_append]; exact (Goes.skips h t).skip

theorem Goes.cables {xs : List Stmt} {r : Node × List Stmt} : ∀ (cs : List Cable) (p : Part),
    (∀ c ∈ cs, c.src < p.nodes.length ∧ c.dst < p.nodes.length) →
    Goes dict { p with conns := p.conns ++ cs } xs r → Goes dict p (cs.map .connect ++ xs) r
  | [], p, _, h => by simpa using h
  | c :: cs, p, hc, h => by
    have ih := Goes.cables cs { p with conns := p.conns ++ [c] } (fun d hd => hc d (List.mem_cons_of_mem _ hd))
      (by simpa using h)
    intro k hk
    obtain ⟨k, rfl⟩ : ∃ j, k = j + 1 := ⟨k - 1, by simp at hk; omega⟩
    simp only [List.map_cons, List.cons_append, loop]
    rw [if_pos (hc c (by simp))]
    exact ih k (by simpa using hk)

theorem Goes.canvas {p : Part} {xs ys : List Stmt} {r : Node × List Stmt} {f key : Nat} {a : List Nat} {x : Node}
    (hd : dict.lookup key = some a) (h : Goes dict ⟨a, [], []⟩ xs (x, ys)) (hl : ys.length ≤ xs.length)
    (h' : Goes dict { p with nodes := p.nodes ++ [x] } ys r) : Goes dict p (.canvas f key :: xs) r := by
  intro k hk
  obtain ⟨k, rfl⟩ : ∃ j, k = j + 1 := ⟨k - 1, by simp at hk; omega⟩
  have hk : xs.length < k := by simpa using hk
  simp only [loop, hd, h k hk]
  exact h' k (by omega)

theorem nodesAll_length : ∀ bs : List Box, (nodesAll A bs).length = (bs.filter Box.counts).length
  | [] => rfl
  | b :: bs => by
    simp only [nodesAll, List.length_append, nodesAll_length bs, List.filter_cons]
    cases b with
    | sub k o bs cs t => cases o <;> simp [Box.nodes, Box.counts] <;> omega
    | skip => simp [Box.nodes, Box.counts]
    | arg n => simp [Box.nodes, Box.counts]; omega
    | box n => simp [Box.nodes, Box.counts]; omega

mutual
theorem goes_box : ∀ (b : Box) (path : List Nat) (p : Part) (xs : List Stmt) (r : Node × List Stmt), b.Ok path →
    (∀ k ∈ b.keys, dict.lookup k = some (A k)) → Goes dict { p with nodes := p.nodes ++ b.nodes A } xs r →
    Goes dict p (b.write ++ xs) r
  | .arg n, _, p, xs, r, _, _, h => h.leaf.2
  | .box n, _, p, xs, r, _, _, h => h.leaf.1
  | .skip, _, p, xs, r, _, _, h => Goes.skip (by simpa [Box.nodes] using h)
  | .sub k o bs cs t, path, p, xs, r, hok, hk, h => by
    simp only [Box.Ok] at hok
    simp only [Box.keys, List.mem_cons, forall_eq_or_imp] at hk
    simp only [Box.write, List.cons_append, List.append_assoc]
    have hcs : ∀ c ∈ cs, c.src < (nodesAll A bs).length ∧ c.dst < (nodesAll A bs).length := by
      intro c hc
      rw [nodesAll_length]
      exact hok.2.1 c hc
    cases o with
    | none =>
      refine Goes.canvas (x := .graph (A k) (nodesAll A bs) cs) (ys := xs) hk.1 ?_ (by simp; omega) h
      refine goes_all bs _ _ _ _ hok.2.2 hk.2 (Goes.cables cs _ (by simpa using hcs) (Goes.skips ?_ t))
      intro j hj
      obtain ⟨j, rfl⟩ : ∃ i, j = i + 1 := ⟨j - 1, by simp at hj; omega⟩
      simp [loop]
    | some n =>
      refine Goes.canvas (x := .leaf n) (ys := xs) hk.1 ?_ (by simp; omega) h
      refine goes_all bs _ _ _ _ hok.2.2 hk.2 (Goes.cables cs _ (by simpa using hcs) (Goes.skips ?_ t))
      intro j hj
      obtain ⟨j, rfl⟩ : ∃ i, j = i + 1 := ⟨j - 1, by simp at hj; omega⟩
      simp [loop]
theorem goes_all : ∀ (bs : List Box) (path : List Nat) (p : Part) (xs : List Stmt) (r : Node × List Stmt), AllOk path bs →
    (∀ k ∈ keysAll bs, dict.lookup k = some (A k)) → Goes dict { p with nodes := p.nodes ++ nodesAll A bs } xs r →
    Goes dict p (writeAll bs ++ xs) r
  | [], _, p, xs, r, _, _, h => by simpa [nodesAll, writeAll] using h
  | b :: bs, path, p, xs, r, hok, hk, h => by
    simp only [AllOk] at hok
    simp only [keysAll, List.mem_append] at hk
    simp only [writeAll, List.append_assoc]
    refine goes_box b path p _ r hok.1 (fun k h => hk k (.inl h)) ?_
    refine goes_all bs path _ xs r hok.2 (fun k h => hk k (.inr h)) ?_
    simpa [nodesAll] using h
end

/-! ### The arguments -/

def keys (d : List (Nat × List Nat)) : List Nat := d.map Prod.fst

theorem keys_setKey (k : Nat) (d : List (Nat × List Nat)) :
    keys (setKey k d) = if k ∈ keys d then keys d else keys d ++ [k] := by
  unfold setKey keys
  split
  · rw [List.map_map]
    refine List.map_congr_left fun e _ => ?_
    simp only [Function.comp]
    split <;> simp [*]
  · simp

theorem mem_setKey (k : Nat) (d : List (Nat × List Nat)) : k ∈ keys (setKey k d) := by
  rw [keys_setKey]; split <;> simp [*]

theorem sub_setKey {k x : Nat} {d : List (Nat × List Nat)} (h : x ∈ keys d) : x ∈ keys (setKey k d) := by
  rw [keys_setKey]; split <;> simp [h]

theorem nodup_setKey {k : Nat} {d : List (Nat × List Nat)} (h : (keys d).Nodup) : (keys (setKey k d)).Nodup := by
  rw [keys_setKey]
  split
  · exact h
  · rename_i hk
    exact List.nodup_append.2 ⟨h, by simp, by simpa using fun x hx (e : x = k) => hk (e ▸ hx)⟩

theorem setKey_cons {k k₀ : Nat} (a : List Nat) (d : List (Nat × List Nat)) (h : k ≠ k₀) :
    setKey k ((k₀, a) :: d) = (k₀, a) :: setKey k d := by
  unfold setKey
  have h' : ¬ k₀ = k := fun e => h e.symm
  by_cases hk : k ∈ d.map Prod.fst
  · rw [if_pos hk, if_pos (by simp [hk])]
    simp [h']
  · rw [if_neg hk, if_neg (by simp [hk, h])]
    simp

theorem keys_modify (i : Nat) (n : Nat) (d : List (Nat × List Nat)) :
    keys (d.modify i fun e => (e.1, e.2 ++ [n])) = keys d := by
  induction d generalizing i with
  | nil => simp [keys]
  | cons e d ih =>
    cases i with
    | zero => simp [keys, List.modify_cons]
    | succ i =>
      have := ih i
      unfold keys at this
      simp [keys, this]

/-- While the boxes of a canvas are read: `path` are the lines of the open canvases, the first of which, `k₀`, has the arguments
`a` so far. -/
structure Inv (k₀ : Nat) (a path : List Nat) (d : List (Nat × List Nat)) (i : Nat) (s : Pre) : Prop where
  eq : s = ⟨(path.length : Int) - 1, (k₀, a) :: d, some i⟩
  top : i = 0 ↔ path.length = 1
  nodup : (k₀ :: keys d).Nodup
  sub : ∀ k ∈ path, k = k₀ ∨ k ∈ keys d
  first : k₀ ∈ path
  path : path.Nodup

theorem Inv.length {k₀ i : Nat} {a path : List Nat} {d : List (Nat × List Nat)} {s : Pre} (h : Inv k₀ a path d i s) :
    path.length ≤ d.length + 1 := by
  have := (h.path.subperm (l₂ := k₀ :: keys d) (fun k hk => by
    rcases h.sub k hk with rfl | h
    · simp
    · simp [h])).length_le
  simpa [keys] using this

/-- what reading more statements of the same canvas does -/
def After (k₀ : Nat) (a path : List Nat) (d : List (Nat × List Nat)) (s : Pre) (xs : List Stmt) (new ks : List Nat) : Prop :=
  ∃ d' i' s', (∀ rest, pre s (xs ++ rest) = pre s' rest) ∧ Inv k₀ (a ++ new) path d' i' s' ∧
    (∀ k ∈ keys d, k ∈ keys d') ∧ ∀ k ∈ ks, k = k₀ ∨ k ∈ keys d'

theorem index_ok {n : Nat} {m : Int} (h : 0 ≤ m) (hn : m.toNat < n) : index n m = some m.toNat := by
  unfold index
  rw [if_pos h, if_pos hn]

theorem pre_end {s : Pre} {n : Nat} {x : Stmt} (hx : x = .restore ∨ x = .native n) (i : Nat)
    (hi : index s.dict.length (s.num - 1) = some i) (rest : List Stmt) :
    pre s (x :: rest) = pre ⟨s.num - 1, s.dict, some i⟩ rest := by
  rcases hx with rfl | rfl <;> simp [pre, preStep, hi]

theorem pre_plain : ∀ (cs : List Cable) (t : Nat) (s : Pre) (rest : List Stmt),
    pre s (cs.map .connect ++ (List.replicate t .skip ++ rest)) = pre s rest
  | [], 0, _, _ => rfl
  | [], t + 1, s, rest => by
    have := pre_plain [] t s rest
    simpa [List.replicate_succ, pre, preStep] using this
  | c :: cs, t, s, rest => by
    have := pre_plain cs t s rest
    simpa [pre, preStep] using this

mutual
theorem pre_box : ∀ (b : Box) (k₀ : Nat) (a path : List Nat) (d : List (Nat × List Nat)) (i : Nat) (s : Pre),
    b.Ok path → Inv k₀ a path d i s → After k₀ a path d s b.write (if path.length = 1 then args [b] else []) b.keys
  | .box n, k₀, a, path, d, i, s, _, h =>
    ⟨d, i, s, fun rest => rfl, by simpa [args] using h, fun _ h => h, by simp [Box.keys]⟩
  | .skip, k₀, a, path, d, i, s, _, h =>
    ⟨d, i, s, fun rest => rfl, by simpa [args] using h, fun _ h => h, by simp [Box.keys]⟩
  | .arg n, k₀, a, path, d, i, s, _, h => by
    obtain ⟨rfl, h1, h2, h3, h4, h5⟩ := h
    by_cases hp : path.length = 1
    · have hi := h1.2 hp
      subst hi
      rw [if_pos hp]
      exact ⟨d, 0, ⟨(path.length : Int) - 1, (k₀, a ++ [n]) :: d, some 0⟩, fun rest => by simp [Box.write, pre, preStep],
        ⟨by simp [args], h1, h2, h3, h4, h5⟩, fun _ h => h, by simp [Box.keys]⟩
    · obtain ⟨i, rfl⟩ : ∃ j, i = j + 1 := ⟨i - 1, by have : i ≠ 0 := fun e => hp (h1.1 e); omega⟩
      rw [if_neg hp]
      refine ⟨d.modify i fun e => (e.1, e.2 ++ [n]), i + 1, ⟨(path.length : Int) - 1, (k₀, a) :: d.modify i fun e => (e.1, e.2 ++ [n]), some (i + 1)⟩,
        fun rest => by simp [Box.write, pre, preStep, List.modify_cons], ⟨by simp, h1, ?_, ?_, h4, h5⟩, ?_, by simp [Box.keys]⟩
      · rw [keys_modify]; exact h2
      · rw [keys_modify]; exact h3
      · rw [keys_modify]; exact fun _ h => h
  | .sub k o bs cs t, k₀, a, path, d, i, s, hok, h => by
    simp only [Box.Ok] at hok
    have hk : k ≠ k₀ := fun e => hok.1 (e ▸ h.first)
    have hlen := h.length
    obtain ⟨rfl, h1, h2, h3, h4, h5⟩ := h
    have hne : path ≠ [] := fun e => by simp [e] at h4
    have hpos : 0 < path.length := List.length_pos_iff.2 hne
    -- the canvas is opened
    have hin : Inv k₀ a (k :: path) (setKey k d) (((k₀ :: keys (setKey k d))).idxOf k)
        ⟨(path.length : Int) - 1 + 1, (k₀, a) :: setKey k d, some (((k₀ :: keys (setKey k d))).idxOf k)⟩ := by
      refine ⟨by simp, ?_, ?_, ?_, by simp [h4], List.nodup_cons.2 ⟨hok.1, h5⟩⟩
      · rw [List.idxOf_cons_ne _ (fun e => hk e.symm)]
        simp; exact hne
      · refine List.nodup_cons.2 ⟨?_, nodup_setKey (List.nodup_cons.1 h2).2⟩
        rw [keys_setKey]
        split
        · exact (List.nodup_cons.1 h2).1
        · simp [(List.nodup_cons.1 h2).1]
          exact fun e => hk e.symm
      · intro x hx
        rcases List.mem_cons.1 hx with rfl | hx
        · exact .inr (mem_setKey _ _)
        · exact (h3 x hx).imp_right sub_setKey
    obtain ⟨d', i', s', hrun, hinv, hsub, hks⟩ := pre_all bs k₀ a (k :: path) _ _ _ hok.2.2 hin
    rw [if_neg (by simp; exact hne), List.append_nil] at hinv
    have hlen' := hinv.length
    obtain ⟨rfl, g1, g2, g3, g4, g5⟩ := hinv
    -- and closed
    have hend : ∀ (x : Stmt) (n : Nat), (x = .restore ∨ x = .native n) → ∀ rest,
        pre ⟨((k :: path).length : Int) - 1, (k₀, a) :: d', some i'⟩ (x :: rest)
          = pre ⟨(path.length : Int) - 1, (k₀, a) :: d', some (path.length - 1)⟩ rest := by
      intro x n hx rest
      rw [pre_end hx (path.length - 1)]
      · simp
      · have e : ((k :: path).length : Int) - 1 - 1 = (path.length : Int) - 1 := by simp
        simp only [e]
        rw [index_ok (by omega) (by simp at hlen' ⊢; omega)]
        congr 1; omega
    refine ⟨d', path.length - 1, ⟨(path.length : Int) - 1, (k₀, a) :: d', some (path.length - 1)⟩, fun rest => ?_,
      ⟨by split <;> simp [args], by omega, g2, fun x hx => g3 x (List.mem_cons_of_mem _ hx), h4, h5⟩,
      fun x hx => hsub x (sub_setKey hx), ?_⟩
    · have hopen : ∀ ys, pre ⟨(path.length : Int) - 1, (k₀, a) :: d, some i⟩ (.canvas k k :: ys)
          = pre ⟨(path.length : Int) - 1 + 1, (k₀, a) :: setKey k d, some (((k₀ :: keys (setKey k d))).idxOf k)⟩ ys := by
        intro ys
        simp [pre, preStep, setKey_cons a d hk, keys]
      simp only [Box.write, List.cons_append, List.append_assoc]
      rw [hopen, hrun, pre_plain]
      cases o with
      | none => exact hend _ 0 (.inl rfl) rest
      | some n => exact hend _ n (.inr rfl) rest
    · intro x hx
      simp only [Box.keys, List.mem_cons] at hx
      rcases hx with rfl | hx
      · exact .inr (hsub _ (mem_setKey _ _))
      · exact hks x hx
theorem pre_all : ∀ (bs : List Box) (k₀ : Nat) (a path : List Nat) (d : List (Nat × List Nat)) (i : Nat) (s : Pre),
    AllOk path bs → Inv k₀ a path d i s → After k₀ a path d s (writeAll bs) (if path.length = 1 then args bs else []) (keysAll bs)
  | [], k₀, a, path, d, i, s, _, h =>
    ⟨d, i, s, fun rest => rfl, by simpa [args] using h, fun _ h => h, by simp [keysAll]⟩
  | b :: bs, k₀, a, path, d, i, s, hok, h => by
    simp only [AllOk] at hok
    obtain ⟨d₁, i₁, s₁, r₁, v₁, m₁, k₁⟩ := pre_box b k₀ a path d i s hok.1 h
    obtain ⟨d₂, i₂, s₂, r₂, v₂, m₂, k₂⟩ := pre_all bs k₀ _ path d₁ i₁ s₁ hok.2 v₁
    refine ⟨d₂, i₂, s₂, fun rest => ?_, ?_, fun x hx => m₂ x (m₁ x hx), fun x hx => ?_⟩
    · simp only [writeAll, List.append_assoc]
      rw [r₁, r₂]
    · have : args (b :: bs) = args [b] ++ args bs := by
        rw [show b :: bs = [b] ++ bs from rfl]; unfold args; exact List.filterMap_append ..
      rw [this]
      split <;> simp_all
    · simp only [keysAll, List.mem_append] at hx
      rcases hx with hx | hx
      · exact (k₁ x hx).imp_right (m₂ x)
      · exact k₂ x hx
end

theorem lookup_isSome {k : Nat} : ∀ {d : List (Nat × List Nat)}, k ∈ keys d → ∃ a, d.lookup k = some a
  | [], h => by simp [keys] at h
  | (k', a') :: d, h => by
    simp only [keys, List.map_cons, List.mem_cons] at h
    by_cases he : k = k'
    · exact ⟨a', by subst he; simp [List.lookup]⟩
    · obtain ⟨a, ha⟩ := lookup_isSome (d := d) (h.resolve_left he)
      refine ⟨a, ?_⟩
      have : (k == k') = false := by simpa using he
      simpa [List.lookup, this] using ha

/-- C90: the file that Pd writes for a patch is read as this patch: in every canvas the same boxes with the same numbers, the
subpatches in their places, and the same cables in the same order; and the graph of the file has exactly its own `@hv_arg`
arguments, in their order. -/
theorem file_read (key : Nat) (bs : List Box) (cs : List Cable) (t : Nat) (hcs : ∀ c ∈ cs, Joins bs c) (hok : AllOk [key] bs) :
    ∃ A, file (write key bs cs t) = some (.graph (args bs) (nodesAll A bs) cs) := by
  have hin : Inv key [] [key] [] 0 ⟨0, [(key, [])], some 0⟩ :=
    ⟨by simp, by simp, by simp [keys], by simp, by simp, by simp⟩
  obtain ⟨d, i, s, hrun, hinv, -, hks⟩ := pre_all bs key [] [key] [] 0 _ hok hin
  obtain ⟨rfl, -, -, -, -, -⟩ := hinv
  simp only [List.length_singleton, if_true, List.nil_append] at hrun
  have hargs : hvArgs (write key bs cs t) = some ((key, args bs) :: d) := by
    have h0 : pre ⟨-1, [], none⟩ (write key bs cs t)
        = pre ⟨0, [(key, [])], some 0⟩ (writeAll bs ++ (cs.map .connect ++ (List.replicate t .skip ++ []))) := by
      simp [write, pre, preStep, setKey]
    rw [hvArgs, h0, hrun, pre_plain]
    rfl
  refine ⟨fun k => (((key, args bs) :: d).lookup k).getD [], ?_⟩
  have hk : ∀ k ∈ keysAll bs, ((key, args bs) :: d).lookup k = some ((((key, args bs) :: d).lookup k).getD []) := by
    intro k hk
    obtain ⟨a, ha⟩ := lookup_isSome (k := k) (d := (key, args bs) :: d) (by
      rcases hks k hk with rfl | h
      · simp [keys]
      · unfold keys at h ⊢
        simp only [List.map_cons]
        exact List.mem_cons_of_mem _ h)
    rw [ha]; rfl
  have hroot : ((key, args bs) :: d).lookup key = some (args bs) := by simp
  have hgo : Goes ((key, args bs) :: d) ⟨args bs, [], []⟩ (writeAll bs ++ (cs.map .connect ++ (List.replicate t .skip ++ [])))
      (.graph (args bs) (nodesAll (fun k => (((key, args bs) :: d).lookup k).getD []) bs) cs, []) := by
    refine goes_all bs [key] _ _ _ hok hk (Goes.cables cs _ (fun c hc => ?_) (Goes.skips ?_ t))
    · simp only [List.nil_append, nodesAll_length]
      exact hcs c hc
    · intro j hj
      obtain ⟨j, rfl⟩ : ∃ i, j = i + 1 := ⟨j - 1, by simp at hj; omega⟩
      simp [loop]
  have := hgo _ (Nat.lt_succ_self _)
  unfold file
  rw [hargs]
  simp only [write, hroot]
  simp only [List.append_nil] at this
  rw [this]
  rfl

/-- The number of a box: the boxes before it in its canvas that Pd counts. -/
theorem numbered (A : Nat → List Nat) (bs₁ bs₂ : List Box) (b : Box) :
    nodesAll A (bs₁ ++ b :: bs₂) = nodesAll A bs₁ ++ (b.nodes A ++ nodesAll A bs₂) ∧
    (nodesAll A bs₁).length = (bs₁.filter Box.counts).length := by
  refine ⟨?_, nodesAll_length bs₁⟩
  induction bs₁ with
  | nil => rfl
  | cons x bs₁ ih => simp [nodesAll, ih]

/-! ### Where the arguments go astray, and an example -/

/-- Canvas 0 holds canvases 1 and 2; canvas 2 holds canvas 3 and after it an `@hv_arg`: it becomes one of canvas 1 (F126). -/
theorem argument_of_a_sibling :
    hvArgs (write 0 [.sub 1 none [] [] 0, .sub 2 none [.sub 3 none [] [] 0, .arg 7] [] 0] [] 0)
      = some [(0, []), (1, [7]), (2, []), (3, [])] := by decide

/-- A subpatch with the same `#N canvas` line as the file makes the arguments of the file before it disappear. -/
theorem arguments_lost : hvArgs (write 0 [.arg 7, .sub 0 none [] [] 0, .arg 8] [] 0) = some [(0, [8])] := by decide

/-- Subpatches in each other with the same `#N canvas` line: an index error, the file cannot be read. -/
theorem nested_alike : file (write 0 [.sub 1 none [.sub 1 none [.sub 1 none [] [] 0] [] 0] [] 0] [] 0) = none := rfl

/-- A `#N canvas` statement that Pd has broken into two lines is not found. -/
theorem broken_line : file [.canvas 0 0, .canvas 1 2, .restore] = none := rfl

namespace Example

/-- An argument, an object, a resized box, a subpatch with two objects and a cable, a Heavy object, another object. -/
def boxes : List Box := [.arg 1, .box 2, .skip, .sub 5 none [.box 3, .box 4, .arg 9] [⟨0, 0, 1, 1⟩] 1,
  .sub 6 (some 8) [.box 3, .box 4] [] 0, .box 7]

theorem ok : AllOk [0] boxes ∧ ∀ c ∈ [(⟨1, 0, 2, 0⟩ : Cable), ⟨2, 0, 3, 1⟩, ⟨3, 0, 4, 0⟩], Joins boxes c := by
  simp [AllOk, Box.Ok, Joins, boxes]
  decide

theorem read : file (write 0 boxes [⟨1, 0, 2, 0⟩, ⟨2, 0, 3, 1⟩, ⟨3, 0, 4, 0⟩] 0) =
    some (.graph [1] [.leaf 1, .leaf 2, .graph [9] [.leaf 3, .leaf 4, .leaf 9] [⟨0, 0, 1, 1⟩], .leaf 8, .leaf 7]
      [⟨1, 0, 2, 0⟩, ⟨2, 0, 3, 1⟩, ⟨3, 0, 4, 0⟩]) := rfl

end Example

end Verif.PdFile
