import Verif.PdAbs
/-!
C48: specification and proofs.
-/
namespace Verif.PdAbs

/-! ## Specification -/

/-- the lines of a canvas without its last line: every subpatch is closed -/
inductive Body : List Line → Prop
  | nil : Body []
  | obj (n : Name) {ls : List Line} : Body ls → Body (.obj n :: ls)
  | sub {ls ms : List Line} : Body ls → Body ms → Body (.canvas :: (ls ++ .restore :: ms))

/-- all files are complete -/
def Complete (E : Env) : Prop := ∀ p, Body (E.file p)

/-- an object in file `p` stands for the contents of file `q` (an object with the name of the file that it is in does not,
unless the library has one of this name) -/
def Includes (E : Env) (p q : Path) : Prop := ∃ n, .obj n ∈ E.file p ∧ action E p n = .read q

/-- `p` includes a file that includes a file … `k` times -/
inductive Chain (E : Env) : Path → Nat → Prop
  | one (p : Path) : Chain E p 0
  | more {p q : Path} {k : Nat} : Includes E p q → Chain E q k → Chain E p (k + 1)

/-! ## Proofs -/

/-- what may follow the body of a canvas -/
inductive Tail : List Line → List Line → Prop
  | fin : Tail [] []
  | restore (ls : List Line) : Tail (.restore :: ls) ls

theorem file_def (E : Env) (d : Nat) (q : Path) :
    (match d with
      | 0 => none
      | e + 1 => (canvas E e q (E.file q)).map fun o => o.add 0 1) = file E d q := by
  cases d <;> rfl

theorem canvas_succ (E : Env) (d : Nat) (p : Path) (ls : List Line) :
    canvas E (d + 1) p ls = some (loop E (canvas E d p) (file E d) p ls.length ls) := by
  rw [canvas]
  congr 2
  funext q
  exact file_def E d q

theorem loop_tail (E : Env) (sub : List Line → Option Out) (abs : Path → Option Out) (p : Path) {k : Nat} {tail rest : List Line}
    (ht : Tail tail rest) (hk : tail.length ≤ k) : loop E sub abs p k tail = ⟨0, 0, rest⟩ := by
  cases ht with
  | fin => cases k <;> rfl
  | restore ls =>
    cases k with
    | zero => simp at hk
    | succ k => rfl

/-- a canvas without errors is parsed completely, and so are the files that its objects stand for -/
theorem canvas_no_error (E : Env) {d : Nat} {p : Path} {ls tail rest : List Line} {o : Out} (hb : Body ls) (ht : Tail tail rest)
    (h : canvas E d p (ls ++ tail) = some o) (he : o.errs = 0) :
    o.rest = rest ∧ ∀ n q, .obj n ∈ ls → action E p n = .read q → ∃ e < d, ∃ o', file E e q = some o' ∧ o'.errs = 0 := by
  induction d generalizing p ls tail rest o with
  | zero => simp [canvas] at h
  | succ d ih =>
    rw [canvas_succ, Option.some_inj] at h
    subst h
    revert he
    generalize hkk : (ls ++ tail).length = k
    have hk : (ls ++ tail).length ≤ k := Nat.le_of_eq hkk
    clear hkk
    induction hb generalizing k with
    | nil =>
      intro he
      rw [List.nil_append] at hk ⊢
      rw [loop_tail E _ _ p ht hk]
      exact ⟨rfl, by simp⟩
    | @obj n ls hb ihb =>
      intro he
      cases k with
      | zero => simp at hk
      | succ k =>
        rw [List.cons_append] at he hk ⊢
        have hk' : (ls ++ tail).length ≤ k := by simp at hk ⊢; omega
        simp only [loop] at he ⊢
        cases ha : action E p n with
        | leaf =>
          simp only [ha] at he ⊢
          obtain ⟨a, b⟩ := ihb k hk' he
          refine ⟨a, fun m q hm => ?_⟩
          rcases List.mem_cons.mp hm with e | hm
          · cases e; rw [ha]; exact fun h => absurd h (by simp)
          · exact b m q hm
        | unknown => simp [ha, Out.add] at he
        | read q =>
          simp only [ha] at he ⊢
          cases hf : file E d q with
          | none => simp [hf] at he
          | some o' =>
            simp only [hf, Out.add] at he ⊢
            obtain ⟨a, b⟩ := ihb k hk' (by omega)
            refine ⟨a, fun m r hm hr => ?_⟩
            rcases List.mem_cons.mp hm with e | hm
            · cases e
              rw [ha] at hr
              cases hr
              exact ⟨d, by omega, o', hf, by omega⟩
            · exact b m r hm hr
    | @sub ls ms hb hm ihb ihm =>
      intro he
      cases k with
      | zero => simp at hk
      | succ k =>
        have e1 : (Line.canvas :: (ls ++ .restore :: ms)) ++ tail = .canvas :: (ls ++ (.restore :: (ms ++ tail))) := by simp
        rw [e1] at he hk ⊢
        simp only [loop] at he ⊢
        cases hs : canvas E d p (ls ++ (.restore :: (ms ++ tail))) with
        | none => simp [hs] at he
        | some o1 =>
          simp only [hs, Out.add] at he ⊢
          obtain ⟨a1, b1⟩ := ih hb (.restore (ms ++ tail)) hs (by omega)
          rw [a1] at he ⊢
          obtain ⟨a2, b2⟩ := ihm k (by simp at hk ⊢; omega) (by omega)
          refine ⟨a2, fun m q hmem hr => ?_⟩
          rcases List.mem_cons.mp hmem with e | hmem
          · cases e
          · rcases List.mem_append.mp hmem with hmem | hmem
            · obtain ⟨e, he1, h2⟩ := b1 m q hmem hr
              exact ⟨e, by omega, h2⟩
            · rcases List.mem_cons.mp hmem with e | hmem
              · cases e
              · exact b2 m q hmem hr

theorem file_no_error (E : Env) (hE : Complete E) {d : Nat} {p q : Path} {o : Out} (h : file E d p = some o) (he : o.errs = 0)
    (hi : Includes E p q) : ∃ e, e + 1 < d ∧ ∃ o', file E e q = some o' ∧ o'.errs = 0 := by
  cases d with
  | zero => simp [file] at h
  | succ d =>
    simp only [file, Option.map_eq_some_iff] at h
    obtain ⟨o1, h1, rfl⟩ := h
    obtain ⟨n, hn, ha⟩ := hi
    rw [← List.append_nil (E.file p)] at h1
    obtain ⟨-, b⟩ := canvas_no_error E (hE p) .fin h1 (by simpa [Out.add] using he)
    obtain ⟨e, h2, h3⟩ := b n q hn ha
    exact ⟨e, by omega, h3⟩

/-! ## C48 -/

/-- The parser ends for every set of files and every limit of the depth of calls, and if it reports no error, then no chain of
inclusions from the patch is longer than the limit allows.  So a patch with (mutually) recursive abstractions ends in an error. -/
theorem no_error_no_recursion (E : Env) (hE : Complete E) {d : Nat} {p : Path} {o : Out} (h : file E d p = some o) (he : o.errs = 0)
    {k : Nat} (hc : Chain E p k) : 2 * k < d := by
  induction hc generalizing d o with
  | one p =>
    cases d with
    | zero => simp [file] at h
    | succ d => omega
  | more hi _ ih =>
    obtain ⟨e, h1, o', h2, h3⟩ := file_no_error E hE h he hi
    have := ih h2 h3
    omega

/-- … in particular when a file of the patch includes itself through other files. -/
theorem recursion_is_an_error (E : Env) (hE : Complete E) {d : Nat} {p : Path} (hc : ∀ k, Chain E p k) {o : Out}
    (h : file E d p = some o) : 0 < o.errs := by
  rcases Nat.eq_zero_or_pos o.errs with he | he
  · have := no_error_no_recursion E hE h he (hc d)
    omega
  · exact he

/-- An object with the name of the file it is in does not include this file again … -/
theorem self_not_read_again (E : Env) (p : Path) (n : Name) (h : E.find p n = some p) (hl : E.lib n ≠ some p) :
    action E p n ≠ .read p := by
  unfold action
  rw [h]
  simp only [if_true]
  split
  · simp
  · split
    · rename_i q hq
      intro e
      cases e
      exact hl hq
    · split <;> simp

theorem canvas_flat (E : Env) {p : Path} {ls tail rest : List Line} (hb : Body ls) (ht : Tail tail rest)
    (hr : ∀ n q, .obj n ∈ ls → action E p n ≠ .read q) {d : Nat} (hd : ls.length < d) :
    ∃ o, canvas E d p (ls ++ tail) = some o ∧ o.rest = rest ∧ o.opened = 0 ∧
      (o.errs = 0 ↔ ∀ n, .obj n ∈ ls → action E p n = .leaf) := by
  induction d generalizing ls tail rest with
  | zero => omega
  | succ d ih =>
    rw [canvas_succ]
    refine ⟨_, rfl, ?_⟩
    generalize hkk : (ls ++ tail).length = k
    have hk : (ls ++ tail).length ≤ k := Nat.le_of_eq hkk
    clear hkk
    induction hb generalizing k with
    | nil =>
      rw [List.nil_append] at hk ⊢
      rw [loop_tail E _ _ p ht hk]
      simp
    | @obj n ls hb ihb =>
      cases k with
      | zero => simp at hk
      | succ k =>
        rw [List.cons_append] at hk ⊢
        obtain ⟨a, b, c⟩ := ihb (fun m q hm => hr m q (by simp [hm])) (by simp at hd; omega) k (by simp at hk ⊢; omega)
        simp only [loop]
        cases ha : action E p n with
        | leaf =>
          simp only
          refine ⟨a, b, c.trans ⟨fun h m hm => ?_, fun h m hm => h m (by simp [hm])⟩⟩
          rcases List.mem_cons.mp hm with e | hm
          · cases e; exact ha
          · exact h m hm
        | unknown =>
          simp only [Out.add]
          refine ⟨a, by omega, ⟨fun h => by omega, fun h => ?_⟩⟩
          have := h n (by simp)
          rw [ha] at this
          exact absurd this (by simp)
        | read q => exact absurd ha (hr n q (by simp))
    | @sub ls ms hb hm ihb ihm =>
      cases k with
      | zero => simp at hk
      | succ k =>
        have e1 : (Line.canvas :: (ls ++ .restore :: ms)) ++ tail = .canvas :: (ls ++ (.restore :: (ms ++ tail))) := by simp
        rw [e1] at hk ⊢
        simp only [loop]
        simp only [List.length_cons, List.length_append] at hd
        obtain ⟨o1, h1, h2, h3, h4⟩ := ih hb (.restore (ms ++ tail)) (fun m q hm => hr m q (by simp [hm])) (by omega)
        rw [h1]
        simp only [Out.add]
        obtain ⟨a, b, c⟩ := ihm (fun m q hm => hr m q (by simp [hm])) (by omega) k (by simp at hk ⊢; omega)
        rw [h2]
        refine ⟨a, by omega, ?_⟩
        constructor
        · intro h m hmem
          rcases List.mem_cons.mp hmem with e | hmem
          · cases e
          · rcases List.mem_append.mp hmem with hmem | hmem
            · exact h4.mp (by omega) m hmem
            · rcases List.mem_cons.mp hmem with e | hmem
              · cases e
              · exact c.mp (by omega) m hmem
        · intro h
          have := h4.mpr fun m hmem => h m (by simp [hmem])
          have := c.mpr fun m hmem => h m (by simp [hmem])
          omega

/-- … so a file whose objects name only itself, library objects of hvcc and unknown objects is read once, and there is an error
exactly if one of them is unknown. -/
theorem self_recursion_detected (E : Env) (hE : Complete E) (p : Path) (hf : ∀ n, .obj n ∈ E.file p → E.find p n = some p ∨ E.find p n = none)
    (hl : ∀ n, .obj n ∈ E.file p → E.lib n = none) {d : Nat} (hd : (E.file p).length + 1 < d) :
    ∃ o, file E d p = some o ∧ o.opened = 1 ∧
      (o.errs = 0 ↔ ∀ n, .obj n ∈ E.file p → E.converted n = true ∨ E.builtin n = true) := by
  have act : ∀ n, .obj n ∈ E.file p → action E p n = if E.converted n = true ∨ E.builtin n = true then .leaf else .unknown := by
    intro n hn
    unfold action
    rw [hl n hn]
    rcases hf n hn with h | h <;> rw [h] <;> by_cases h1 : E.converted n = true <;> by_cases h2 : E.builtin n = true <;> simp [h1, h2]
  cases d with
  | zero => omega
  | succ d =>
    obtain ⟨o, h1, -, h3, h4⟩ := canvas_flat E (hE p) .fin (p := p) (d := d)
      (fun n q hn e => by rw [act n hn] at e; split at e <;> simp at e) (by omega)
    rw [List.append_nil] at h1
    refine ⟨o.add 0 1, by simp [file, h1], by simp [Out.add, h3], ?_⟩
    simp only [Out.add, Nat.zero_add]
    rw [h4]
    constructor
    · intro h n hn
      have := h n hn
      rw [act n hn] at this
      by_cases hc : E.converted n = true ∨ E.builtin n = true
      · exact hc
      · rw [if_neg hc] at this
        exact absurd this (by simp)
    · intro h n hn
      rw [act n hn, if_pos (h n hn)]

theorem canvas_complete (E : Env) {p : Path} {ls tail rest : List Line} (hb : Body ls) (ht : Tail tail rest) {d D : Nat}
    (hk : ∀ n, .obj n ∈ ls → action E p n ≠ .unknown)
    (hr : ∀ n q, .obj n ∈ ls → action E p n = .read q → ∀ e, D ≤ e → ∃ o, file E e q = some o ∧ o.errs = 0)
    (hd : ls.length + D < d) :
    ∃ o, canvas E d p (ls ++ tail) = some o ∧ o.rest = rest ∧ o.errs = 0 := by
  induction d generalizing ls tail rest with
  | zero => omega
  | succ d ih =>
    rw [canvas_succ]
    refine ⟨_, rfl, ?_⟩
    generalize hkk : (ls ++ tail).length = k
    have hk' : (ls ++ tail).length ≤ k := Nat.le_of_eq hkk
    clear hkk
    induction hb generalizing k with
    | nil =>
      rw [List.nil_append] at hk' ⊢
      rw [loop_tail E _ _ p ht hk']
      simp
    | @obj n ls hb ihb =>
      cases k with
      | zero => simp at hk'
      | succ k =>
        rw [List.cons_append] at hk' ⊢
        obtain ⟨a, b⟩ := ihb (fun m hm => hk m (by simp [hm])) (fun m q hm => hr m q (by simp [hm])) (by simp at hd; omega) k
          (by simp at hk' ⊢; omega)
        simp only [loop]
        cases ha : action E p n with
        | leaf => exact ⟨a, b⟩
        | unknown => exact absurd ha (hk n (by simp))
        | read q =>
          obtain ⟨o, h1, h2⟩ := hr n q (by simp) ha d (by omega)
          simp only [h1, Out.add]
          exact ⟨a, by omega⟩
    | @sub ls ms hb hm ihb ihm =>
      cases k with
      | zero => simp at hk'
      | succ k =>
        have e1 : (Line.canvas :: (ls ++ .restore :: ms)) ++ tail = .canvas :: (ls ++ (.restore :: (ms ++ tail))) := by simp
        rw [e1] at hk' ⊢
        simp only [loop]
        simp only [List.length_cons, List.length_append] at hd
        obtain ⟨o1, h1, h2, h3⟩ := ih hb (.restore (ms ++ tail)) (fun m hm => hk m (by simp [hm])) (fun m q hm => hr m q (by simp [hm])) (by omega)
        rw [h1]
        simp only [Out.add]
        obtain ⟨a, b⟩ := ihm (fun m hm => hk m (by simp [hm])) (fun m q hm => hr m q (by simp [hm])) (by omega) k (by simp at hk' ⊢; omega)
        rw [h2]
        exact ⟨a, by omega⟩

/-- No false alarms: if the inclusions are not recursive (every file has a level, and includes files of lower level only), all
objects are known and the limit of the depth of calls is large enough, then there is no error. -/
theorem no_false_alarm (E : Env) (hE : Complete E) (level : Path → Nat) (hlev : ∀ p q, Includes E p q → level q < level p)
    (hk : ∀ p n, .obj n ∈ E.file p → action E p n ≠ .unknown) (L : Nat) (hL : ∀ p, (E.file p).length ≤ L)
    (p : Path) {d : Nat} (hd : (level p + 1) * (L + 2) ≤ d) : ∃ o, file E d p = some o ∧ o.errs = 0 := by
  have key : ∀ l p, level p = l → ∀ d, (l + 1) * (L + 2) ≤ d → ∃ o, file E d p = some o ∧ o.errs = 0 := by
    intro l
    induction l using Nat.strongRecOn with
    | ind l ih =>
      intro p hp d hd
      cases d with
      | zero => simp at hd
      | succ d =>
        have e : (l + 1) * (L + 2) = l * (L + 2) + (L + 2) := Nat.succ_mul _ _
        have := hL p
        obtain ⟨o, h1, -, h3⟩ := canvas_complete E (hE p) .fin (p := p) (d := d) (D := l * (L + 2)) (hk p)
          (fun n q hn ha e he => by
            have hlt := hlev p q ⟨n, hn, ha⟩
            rw [hp] at hlt
            refine ih (level q) hlt q rfl e (Nat.le_trans (Nat.mul_le_mul_right _ hlt) he)) (by omega)
        rw [List.append_nil] at h1
        exact ⟨o.add 0 1, by simp [file, h1], by simp [Out.add, h3]⟩
  exact key _ p rfl d hd

/-! ### Mutual recursion -/

/-- two files that contain each other `c` times -/
def mutual_ (c : Nat) : Env where
  find _ n := if n < 2 then some n else none
  converted _ := false
  lib _ := none
  builtin _ := false
  file p := List.replicate c (.obj (1 - p))

theorem body_replicate (c n : Nat) : Body (List.replicate c (.obj n)) := by
  induction c with
  | zero => exact .nil
  | succ c ih => exact .obj n ih

theorem mutual_complete (c : Nat) : Complete (mutual_ c) := fun _ => body_replicate c _

theorem mutual_action (c : Nat) {p : Nat} (hp : p < 2) : action (mutual_ c) p (1 - p) = .read (1 - p) := by
  have h1 : 1 - p < 2 := by omega
  have h2 : 1 - p ≠ p := by omega
  simp [action, mutual_, h1, h2]

theorem mutual_chain (c k : Nat) {p : Nat} (hp : p < 2) : Chain (mutual_ (c + 1)) p k := by
  induction k generalizing p with
  | zero => exact .one p
  | succ k ih => exact .more ⟨1 - p, by simp [mutual_], mutual_action _ hp⟩ (ih (by omega))

theorem mutual_loop (c : Nat) {p : Nat} (hp : p < 2) (sub : List Line → Option Out) (abs : Path → Option Out) (o : Out)
    (ha : abs (1 - p) = some o) (k m : Nat) (hm : m ≤ k) :
    loop (mutual_ c) sub abs p k (List.replicate m (.obj (1 - p))) = ⟨m * o.errs, m * o.opened, []⟩ := by
  induction m generalizing k with
  | zero => cases k <;> simp [loop]
  | succ m ih =>
    cases k with
    | zero => omega
    | succ k =>
      rw [List.replicate_succ]
      simp only [loop, mutual_action c hp, ha, Out.add]
      rw [ih k (by omega)]
      simp [Nat.succ_mul, Nat.add_comm]

/-- Finding F19: mutual recursion is only stopped by Python's limit for the depth of calls.  Until then every file is read
again, so with two objects in each of two files (`c = 2`) the number of files read doubles every two calls: with the limit
`2 * k + 2`, that is (about) 1000 by default, it is at least `2 ^ k`. -/
theorem mutual_recursion_doubles (c k : Nat) {p : Nat} (hp : p < 2) :
    ∃ o, file (mutual_ c) (2 * k + 2) p = some o ∧ c ^ k ≤ o.opened := by
  induction k generalizing p with
  | zero =>
    simp only [Nat.mul_zero, Nat.zero_add, Nat.pow_zero, file]
    rw [canvas_succ]
    exact ⟨_, rfl, by simp [Out.add]⟩
  | succ k ih =>
    obtain ⟨o, h1, h2⟩ := ih (p := 1 - p) (by omega)
    have e : 2 * (k + 1) + 2 = (2 * k + 2 + 1) + 1 := by omega
    rw [e]
    simp only [file]
    rw [canvas_succ]
    have hf : (mutual_ c).file p = List.replicate c (.obj (1 - p)) := rfl
    rw [hf, mutual_loop c hp _ _ o h1 _ _ (by simp)]
    refine ⟨_, rfl, ?_⟩
    simp only [Out.add]
    have : c ^ (k + 1) ≤ c * o.opened := by
      rw [Nat.pow_succ, Nat.mul_comm]
      exact Nat.mul_le_mul_left c h2
    omega

/-- … and the error that is reported in the end is that of Python. -/
theorem mutual_recursion_is_an_error (c d : Nat) {p : Nat} (hp : p < 2) {o : Out} (h : file (mutual_ (c + 1)) d p = some o) : 0 < o.errs :=
  recursion_is_an_error _ (mutual_complete _) (fun k => mutual_chain c k hp) h

/-- concrete cases: a file that includes another one twice, once in a subpatch; a file named like the object in it -/
def exampleEnv : Env where
  find _ n := if n < 3 then some n else none
  converted n := n = 5
  lib _ := none
  builtin n := n = 2
  file p := if p = 0 then [.obj 1, .canvas, .obj 5, .obj 1, .restore, .obj 5] else if p = 1 then [.obj 5] else if p = 2 then [.obj 2] else []

example : file exampleEnv 10 0 = some ⟨0, 3, []⟩ ∧ file exampleEnv 10 2 = some ⟨0, 1, []⟩ ∧ file (mutual_ 1) 10 0 = some ⟨1, 5, []⟩ := by decide

/-! ### hv2ir -/

theorem hvLoop_ne_depth {E : HvEnv} {next : Path → Res} {chain : List Path} {ns : List Name}
    (h : ∀ n ∈ ns, ∀ q, E.find chain n = some q → q ∉ chain → next q ≠ .depth) : hvLoop E next chain ns ≠ .depth := by
  induction ns with
  | nil => simp [hvLoop]
  | cons n ns ih =>
    have ih := ih fun m hm => h m (by simp [hm])
    unfold hvLoop
    cases hf : E.find chain n with
    | none => simp only; split <;> rename_i hs <;> split at hs <;> simp_all
    | some q =>
      by_cases hq : q ∈ chain
      · simp only [hq, not_true, if_false]
        split <;> rename_i hs <;> split at hs <;> simp_all
      · have := h n (by simp) q hf hq
        simp only [hq, not_false_iff, if_true]
        split
        · exact ih
        · exact this

/-- hv2ir keeps a real stack: with any finite set of files, reading ends with a graph or an exception, and the nesting is
never deeper than the number of files. -/
theorem hv_terminates (E : HvEnv) (files : List Path) (hfin : ∀ c n q, E.find c n = some q → q ∈ files) (chain : List Path)
    (hc : chain.Nodup) (hs : ∀ q ∈ chain, q ∈ files) (q : Path) (hq : q ∈ files) {d : Nat} (hd : files.length < d + chain.length) :
    hvFile E d chain q ≠ .depth := by
  induction d generalizing chain q with
  | zero =>
    have := List.Nodup.length_le_of_subset hc hs
    omega
  | succ d ih =>
    unfold hvFile
    split
    · simp
    · rename_i hn
      refine hvLoop_ne_depth fun n _ r hr hrn => ?_
      refine ih (q :: chain) (List.nodup_cons.mpr ⟨hn, hc⟩) ?_ r (hfin _ _ _ hr) (by simp; omega)
      intro x hx
      rcases List.mem_cons.mp hx with rfl | hx
      · exact hq
      · exact hs x hx

/-- a concrete case: two files that include each other; the second inclusion is taken for an object of hvcc, which is not known -/
example : hvFile ⟨fun _ n => if n < 2 then some n else none, fun _ => false, fun p => [1 - p]⟩ 3 [] 0 = .raised := by decide

end Verif.PdAbs
