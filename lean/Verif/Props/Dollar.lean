import Verif.Dollar
import Verif.Props.ControlExpr
/-!
C36: specification and proofs.
-/
namespace Verif.Dollar
open Verif.ControlExpr (Text scan replace isDigit isWord number lw NoMatch scan_pass scan_hit noMatch_of takeWhile_digits)

/-! ## Specification -/

/-- an argument: references and characters -/
inductive Tok
  | ref (n : Text)
  | chr (c : Char)
  deriving DecidableEq, Repr

/-- `pre` is `\$` in a Pd file, `$` in a Heavy file -/
def Tok.text (pre : Text) : Tok → Text
  | .ref n => pre ++ n
  | .chr c => [c]

def text (pre : Text) (ts : List Tok) : Text := ts.flatMap (Tok.text pre)

/-- every reference is replaced, independently of the others -/
def subst (f : Text → Text) (ts : List Tok) : Text :=
  ts.flatMap fun t => match t with | .ref n => f n | .chr c => [c]

/-- no reference is the beginning of another one, as `$1` is of `$10` -/
def PrefixFree (ns : List Text) : Prop := ∀ a ∈ ns, ∀ b ∈ ns, a <+: b → a = b

def refs (ts : List Tok) : List Text := ts.flatMap fun t => match t with | .ref n => [n] | .chr _ => []

/-! ## Replacing -/

/-- in between: some references are replaced -/
inductive Part
  | tok (t : Tok)
  | done (s : Text)

def Part.text (pre : Text) : Part → Text
  | .tok t => t.text pre
  | .done s => s

def ptext (pre : Text) (ps : List Part) : Text := ps.flatMap (Part.text pre)

def Part.Ok : Part → Prop
  | .tok (.ref n) => ∀ c ∈ n, c ≠ '$'
  | .tok (.chr c) => c ≠ '$'
  | .done s => ∀ c ∈ s, c ≠ '$'

def bindPart (n v : Text) : Part → Part
  | .tok (.ref m) => if m = n then .done v else .tok (.ref m)
  | p => p

/-- `$` or `\$` -/
def Marker (pre : Text) : Prop := pre = ['$'] ∨ pre = ['\\', '$']

variable {pre : Text}

theorem ptext_cons (p : Part) (ps : List Part) : ptext pre (p :: ps) = p.text pre ++ ptext pre ps := by simp [ptext]

theorem head_ne (ps : List Part) (h : ∀ p ∈ ps, p.Ok) : (ptext ['\\', '$'] ps).head? ≠ some '$' := by
  induction ps with
  | nil => simp [ptext]
  | cons p ps ih =>
    have ih := ih fun q hq => h q (by simp [hq])
    have hp := h p (by simp)
    rw [ptext_cons]
    match p, hp with
    | .tok (.ref n), _ => simp [Part.text, Tok.text]
    | .tok (.chr c), hp =>
      have hp : c ≠ '$' := hp
      simpa [Part.text, Tok.text] using hp
    | .done [], _ => simpa [Part.text] using ih
    | .done (c :: s), hp => simpa [Part.text] using hp c (by simp)

/-- no match inside text without `$` -/
theorem noMatch_seg (hpre : Marker pre) (n : Text) (s : Text) (hs : ∀ c ∈ s, c ≠ '$') (ps : List Part) (h : ∀ p ∈ ps, p.Ok) (b : Bool) :
    NoMatch (fun _ t => (pre ++ n).isPrefixOf t) (ptext pre ps) b s := by
  rcases hpre with rfl | rfl
  · refine noMatch_of fun c hc b t => ?_
    by_contra hne
    have := List.isPrefixOf_iff_prefix.mp (Bool.of_not_eq_false hne)
    rw [List.cons_append] at this
    exact hs c hc (List.cons_prefix_cons.mp this).1.symm
  · induction s generalizing b with
    | nil => trivial
    | cons c cs ih =>
      refine ⟨?_, ih (fun d hd => hs d (by simp [hd])) _⟩
      by_contra hne
      have hp := List.isPrefixOf_iff_prefix.mp (Bool.of_not_eq_false hne)
      rw [List.cons_append] at hp
      have hp := (List.cons_prefix_cons.mp hp).2
      cases cs with
      | nil =>
        rw [List.nil_append] at hp
        obtain ⟨t, ht⟩ := hp
        exact head_ne ps h (by rw [← ht]; rfl)
      | cons d ds =>
        rw [List.cons_append, List.cons_append] at hp
        exact hs d (by simp) (List.cons_prefix_cons.mp hp).1.symm

theorem replace_ref (hpre : Marker pre) {n v : Text} {ps : List Part} (h : ∀ p ∈ ps, p.Ok)
    (hpf : ∀ m, Part.tok (.ref m) ∈ ps → m <+: n ∨ n <+: m → m = n) (hn : ∀ c ∈ n, c ≠ '$') (b : Bool) :
    scan (fun _ t => (pre ++ n).isPrefixOf t) v (pre ++ n).length b 0 (ptext pre ps) = ptext pre (ps.map (bindPart n v)) := by
  induction ps generalizing b with
  | nil => rfl
  | cons p ps ih =>
    have hok : ∀ q ∈ ps, q.Ok := fun q hq => h q (by simp [hq])
    have ih := fun b => ih hok (fun m hm => hpf m (by simp [hm])) b
    have hp := h p (by simp)
    rw [List.map_cons, ptext_cons, ptext_cons]
    match p, hp with
    | .done s, hp =>
      rw [show (Part.done s).text pre = s from rfl, scan_pass _ (noMatch_seg hpre n s hp ps hok b), ih]
      rfl
    | .tok (.chr c), hp =>
      have hp : c ≠ '$' := hp
      rw [show (Part.tok (.chr c)).text pre = [c] from rfl, scan_pass _ (noMatch_seg hpre n [c] (by simpa using hp) ps hok b), ih]
      rfl
    | .tok (.ref m), hp =>
      rw [show (Part.tok (.ref m)).text pre = pre ++ m from rfl]
      by_cases e : m = n
      · subst e
        have hne : pre ++ m ≠ [] := by rcases hpre with rfl | rfl <;> simp
        rw [scan_hit (p := fun _ t => (pre ++ m).isPrefixOf t) hne (by simp), ih]
        rw [bindPart, if_pos rfl]
        rfl
      · have hno : NoMatch (fun _ t => (pre ++ n).isPrefixOf t) (ptext pre ps) b (pre ++ m) := by
          have first : ∀ rest, (pre ++ n).isPrefixOf (pre ++ m ++ rest) = false := by
            intro rest
            by_contra hne
            have hq := List.isPrefixOf_iff_prefix.mp (Bool.of_not_eq_false hne)
            rw [List.append_assoc] at hq
            have hq := (List.prefix_append_right_inj pre).mp hq
            have := List.prefix_or_prefix_of_prefix hq (List.prefix_append m rest)
            exact e (hpf m (by simp) this.symm)
          have hm := noMatch_seg hpre n m hp ps hok
          rcases hpre with rfl | rfl
          · exact ⟨first _, hm _⟩
          · refine ⟨first _, ?_, hm _⟩
            by_contra hne
            have hq := List.isPrefixOf_iff_prefix.mp (Bool.of_not_eq_false hne)
            rw [List.cons_append] at hq
            exact absurd (List.cons_prefix_cons.mp hq).1 (by decide)
        rw [scan_pass _ hno, ih]
        rw [bindPart, if_neg e]
        rfl

theorem replace_part (hpre : Marker pre) {n v : Text} {ps : List Part} (h : ∀ p ∈ ps, p.Ok)
    (hpf : ∀ m, Part.tok (.ref m) ∈ ps → m <+: n ∨ n <+: m → m = n) (hn : ∀ c ∈ n, c ≠ '$') :
    replace (pre ++ n) v (ptext pre ps) = ptext pre (ps.map (bindPart n v)) := replace_ref hpre h hpf hn _

/-! ## All references -/

def done (f : Text → Text) (ns : List Text) : Part → Part
  | .tok (.ref m) => if m ∈ ns then .done (f m) else .tok (.ref m)
  | p => p

theorem done_nil (f : Text → Text) (p : Part) : done f [] p = p := by
  match p with
  | .tok (.ref m) => simp [done]
  | .tok (.chr c) => rfl
  | .done s => rfl

theorem done_cons (f : Text → Text) (n : Text) (ns : List Text) (p : Part) :
    done f ns (bindPart n (f n) p) = done f (n :: ns) p := by
  match p with
  | .tok (.ref m) =>
    by_cases e : m = n
    · subst e; simp [bindPart, done]
    · simp [bindPart, done, e]
  | .tok (.chr c) => rfl
  | .done s => rfl

theorem bindPart_ok {n v : Text} {p : Part} (hv : ∀ c ∈ v, c ≠ '$') (h : p.Ok) : (bindPart n v p).Ok := by
  match p, h with
  | .tok (.ref m), h =>
    by_cases e : m = n
    · rw [bindPart, if_pos e]; exact hv
    · rw [bindPart, if_neg e]; exact h
  | .tok (.chr c), h => exact h
  | .done s, h => exact h

theorem bindPart_ref {n v m : Text} {p : Part} (h : bindPart n v p = .tok (.ref m)) : p = .tok (.ref m) := by
  match p, h with
  | .tok (.ref k), h =>
    by_cases e : k = n
    · rw [bindPart, if_pos e] at h; exact absurd h (by simp)
    · rw [bindPart, if_neg e] at h; exact h
  | .tok (.chr c), h => exact h
  | .done s, h => exact h

theorem loop_parts {c : Ctx} {f : Text → Text} (ns : List Text) (ps : List Part) (h : ∀ p ∈ ps, p.Ok)
    (hns : ∀ n ∈ ns, (∀ c ∈ n, c ≠ '$') ∧ c.value (number n) = .text (f n) ∧ ∀ d ∈ f n, d ≠ '$')
    (hpf : ∀ n ∈ ns, ∀ m, Part.tok (.ref m) ∈ ps → m <+: n ∨ n <+: m → m = n) :
    c.loop ns (.ok (ptext ['\\', '$'] ps)) = .ok (ptext ['\\', '$'] (ps.map (done f ns))) := by
  induction ns generalizing ps with
  | nil => rw [Ctx.loop, List.map_congr_left (g := id) fun p _ => done_nil f p, List.map_id]
  | cons n ns ih =>
    obtain ⟨hn, hv, hf⟩ := hns n (by simp)
    rw [Ctx.loop, hv]
    simp only
    rw [show ('\\' :: '$' :: n : Text) = ['\\', '$'] ++ n from rfl, replace_part (.inr rfl) h (hpf n (by simp)) hn, ih]
    · rw [List.map_map]
      congr 2
      exact List.map_congr_left fun p _ => done_cons f n ns p
    · intro p hp
      obtain ⟨q, hq, rfl⟩ := List.mem_map.mp hp
      exact bindPart_ok hf (h q hq)
    · exact fun m hm => hns m (by simp [hm])
    · intro k hk m hm
      obtain ⟨q, hq, e⟩ := List.mem_map.mp hm
      rw [bindPart_ref e] at hq
      exact hpf k (by simp [hk]) m hq

theorem text_parts (ts : List Tok) : text pre ts = ptext pre (ts.map .tok) := by
  induction ts with
  | nil => rfl
  | cons t ts ih => rw [List.map_cons, ptext_cons, ← ih]; simp [text, Part.text]

theorem mem_refs {ts : List Tok} {n : Text} : n ∈ refs ts ↔ Tok.ref n ∈ ts := by
  induction ts with
  | nil => simp [refs]
  | cons t ts ih =>
    have : refs (t :: ts) = (match t with | .ref n => [n] | .chr _ => []) ++ refs ts := by simp [refs]
    rw [this]
    cases t <;> simp [ih]

theorem done_text {f : Text → Text} {ns : List Text} (ts : List Tok) (h : ∀ n ∈ refs ts, n ∈ ns) :
    ptext pre ((ts.map Part.tok).map (done f ns)) = subst f ts := by
  induction ts with
  | nil => rfl
  | cons t ts ih =>
    have ih := ih fun n hn => h n (mem_refs.mpr (by have := mem_refs.mp hn; simp [this]))
    rw [List.map_cons, List.map_cons, ptext_cons, ih]
    match t, h with
    | .ref n, h =>
      have : n ∈ ns := h n (mem_refs.mpr (by simp))
      simp [done, this, Part.text, subst]
    | .chr c, _ => simp [done, Part.text, Tok.text, subst]

/-! ## The references of a text -/

/-- what a text looks like: references are numbers, a number ends before a character that is not a digit, and other characters are not `$` -/
def Shape : List Tok → Prop
  | [] => True
  | .ref n :: ts => n ≠ [] ∧ (∀ c ∈ n, isDigit c = true) ∧ (∀ c, ts.head? = some (.chr c) → isDigit c = false) ∧ Shape ts
  | .chr c :: ts => c ≠ '$' ∧ Shape ts

theorem digit_ne_dollar {c : Char} (h : isDigit c = true) : c ≠ '$' := by
  rintro rfl; exact absurd h (by decide)

theorem findRefs_cons_of {c : Char} {cs : Text} (h : c ≠ '$') : findRefs (c :: cs) = findRefs cs := by
  have : refAt (c :: cs) = [] := by
    unfold refAt
    split
    · rename_i e; exact absurd (List.cons.inj e).1 h
    · rfl
  rw [findRefs, this, List.nil_append]

theorem findRefs_seg {s : Text} (rest : Text) (h : ∀ c ∈ s, c ≠ '$') : findRefs (s ++ rest) = findRefs rest := by
  induction s with
  | nil => rfl
  | cons c cs ih => rw [List.cons_append, findRefs_cons_of (h c (by simp)), ih fun d hd => h d (by simp [hd])]

theorem shape_ok {ts : List Tok} (h : Shape ts) : ∀ p ∈ ts.map Part.tok, p.Ok := by
  induction ts with
  | nil => simp
  | cons t ts ih =>
    intro p hp
    match t, h, hp with
    | .ref n, h, hp =>
      rcases List.mem_cons.mp hp with rfl | hp
      · exact fun c hc => digit_ne_dollar (h.2.1 c hc)
      · exact ih h.2.2.2 p hp
    | .chr c, h, hp =>
      rcases List.mem_cons.mp hp with rfl | hp
      · exact h.1
      · exact ih h.2 p hp

theorem takeWhile_ref {n rest : Text} (hn : ∀ c ∈ n, isDigit c = true) (hr : ∀ c, rest.head? = some c → isDigit c = false) :
    (n ++ rest).takeWhile isDigit = n := by
  induction n with
  | nil =>
    cases rest with
    | nil => rfl
    | cons c cs => rw [List.nil_append, List.takeWhile_cons, hr c rfl]; rfl
  | cons d ds ih =>
    rw [List.cons_append, List.takeWhile_cons, hn d (by simp), if_pos rfl, ih fun c hc => hn c (by simp [hc])]

theorem findRefs_text {ts : List Tok} (h : Shape ts) : findRefs (text ['\\', '$'] ts) = refs ts := by
  induction ts with
  | nil => rfl
  | cons t ts ih =>
    have e : text ['\\', '$'] (t :: ts) = t.text ['\\', '$'] ++ text ['\\', '$'] ts := by simp [text]
    rw [e]
    match t, h with
    | .chr c, h =>
      rw [show (Tok.chr c).text ['\\', '$'] = [c] from rfl, findRefs_seg _ (by simpa using h.1), ih h.2]
      simp [refs]
    | .ref n, h =>
      obtain ⟨hne, hd, hs, ht⟩ := h
      rw [show (Tok.ref n).text ['\\', '$'] ++ text ['\\', '$'] ts = '\\' :: '$' :: (n ++ text ['\\', '$'] ts) from rfl,
        findRefs_cons_of (by decide), findRefs, findRefs_seg _ fun c hc => digit_ne_dollar (hd c hc), ih ht]
      have hr : ∀ c, (text ['\\', '$'] ts).head? = some c → isDigit c = false := by
        intro c hc
        match ts, hs, hc with
        | .chr d :: ts, hs, hc =>
          have : d = c := by simpa [text, Tok.text] using hc
          exact this ▸ hs d rfl
        | .ref m :: ts, _, hc =>
          have : '\\' = c := by simpa [text, Tok.text] using hc
          exact this ▸ by decide
      have ha : refAt ('$' :: (n ++ text ['\\', '$'] ts)) = [n] := by
        match n, hne, hd with
        | d :: ds, _, hd =>
          rw [List.cons_append]
          simp only [refAt]
          rw [if_pos (hd d (by simp)), takeWhile_ref (fun c hc => hd c (by simp [hc])) hr]
      rw [ha]
      simp [refs]

/-! ## C36 for Pd -/

/-- In an argument of a Pd object, every reference `$x` is replaced by the value of `x`, all at once and
independently of the order in which the parser happens to visit the set of references — provided that no reference
is the beginning of another one, and that the values contain no `$`. -/
theorem pd_args_partial {c : Ctx} {f : Text → Text} {ts : List Tok} {order : List Text} (h : Shape ts)
    (horder : ∀ n, n ∈ order ↔ n ∈ findRefs (text ['\\', '$'] ts))
    (hval : ∀ n ∈ refs ts, c.value (number n) = .text (f n) ∧ ∀ d ∈ f n, d ≠ '$')
    (hpf : PrefixFree (refs ts)) :
    c.loop order (.ok (text ['\\', '$'] ts)) = .ok (subst f ts) := by
  have ho : ∀ n, n ∈ order ↔ n ∈ refs ts := fun n => by rw [horder, findRefs_text h]
  rw [text_parts, loop_parts (f := f) order _ (shape_ok h), done_text ts fun n hn => (ho n).mpr hn]
  · intro n hn
    have hn := (ho n).mp hn
    refine ⟨?_, hval n hn⟩
    have := shape_ok h (.tok (.ref n)) (List.mem_map.mpr ⟨_, mem_refs.mp hn, rfl⟩)
    exact this
  · intro n hn m hm hp
    obtain ⟨t, ht, e⟩ := List.mem_map.mp hm
    have ht : Tok.ref m ∈ ts := by injection e with e; exact e ▸ ht
    have hm := mem_refs.mpr ht
    have hn := (ho n).mp hn
    rcases hp with hp | hp
    · exact hpf m hm n hn hp
    · exact (hpf n hn m hm hp).symm

/-- what the value is: the argument of that number (0 is the number of the graph) … -/
theorem value_arg {c : Ctx} {x : Nat} {t : Text} (h : c.objArgs[x]? = some t) : c.value x = .text t := by
  simp [Ctx.value, h]

/-- … or the declared default if the argument is not given … -/
theorem value_default {c : Ctx} {x : Nat} {t : Text} (h : c.objArgs.length ≤ x) (hd : c.hvArgs[x - 1]? = some (some t)) :
    c.value x = .text t := by
  simp [Ctx.value, h, hd]

/-- … or zero in the top-level patch -/
theorem value_zero {c : Ctx} {x : Nat} (h : c.objArgs.length ≤ x) (hd : c.hvArgs.length ≤ x - 1) (hr : c.root = true) :
    c.value x = .text ['0'] := by
  simp [Ctx.value, h, hd, hr]

/-- a concrete case: `a\$1-\$2` with the arguments `x` and `y` -/
example : ∀ order : List Text, (∀ n, n ∈ order ↔ n ∈ findRefs "a\\$1-\\$2".toList) →
    (Ctx.mk ["1003".toList, "x".toList, "y".toList] [] false true).loop order (.ok "a\\$1-\\$2".toList) = .ok "ax-y".toList := by
  intro order h
  refine (pd_args_partial (ts := [.chr 'a', .ref ['1'], .chr '-', .ref ['2']]) (f := fun n => if n = ['1'] then ['x'] else ['y'])
    (by simp [Shape, isDigit]) h ?_ ?_).trans ?_
  · intro n hn
    have hn : n = ['1'] ∨ n = ['2'] := by simpa [refs] using hn
    rcases hn with rfl | rfl <;> decide +kernel
  · intro a ha b hb hp
    have ha : a = ['1'] ∨ a = ['2'] := by simpa [refs] using ha
    have hb : b = ['1'] ∨ b = ['2'] := by simpa [refs] using hb
    revert hp
    rcases ha with rfl | rfl <;> rcases hb with rfl | rfl <;> decide
  · decide +kernel

/-- The claim is false without the condition on prefixes: the result for `\$1-\$10` depends on the order in which
the set is visited.  Visited in one order, `$10` is the text of the first argument followed by `0`. -/
theorem order_matters :
    ∃ c : Ctx, ∃ a : Text, ∃ o₁ o₂ : List Text, (∀ n, n ∈ o₁ ↔ n ∈ findRefs a) ∧ (∀ n, n ∈ o₂ ↔ n ∈ findRefs a) ∧
      c.loop o₁ (.ok a) = .ok "x-x0".toList ∧ c.loop o₂ (.ok a) = .ok "x-y".toList := by
  refine ⟨⟨"1003".toList :: "x".toList :: List.replicate 8 [] ++ ["y".toList], [], false, true⟩, "\\$1-\\$10".toList,
    ["1".toList, "10".toList], ["10".toList, "1".toList], ?_, ?_, by decide +kernel, by decide +kernel⟩
  · intro n
    rw [show findRefs "\\$1-\\$10".toList = ["1".toList, "10".toList] by decide +kernel]
  · intro n
    rw [show findRefs "\\$1-\\$10".toList = ["1".toList, "10".toList] by decide +kernel]
    simp [or_comm]

/-- A reference to a required argument that is missing is an error, and the text stays as it is. -/
theorem missing_stays {c : Ctx} {m : Text} {a : Text} (hm : c.value (number m) = .missing) : c.loop [m] (.ok a) = .ok a := by
  simp [Ctx.loop, hm]

/-- Two references that cannot be resolved, in one argument, end the parser with a failed assertion. -/
theorem two_unresolved {c : Ctx} {m n : Text} {ms : List Text} {a : Text} (hm : c.value (number m) = .unresolved) :
    c.loop (m :: n :: ms) (.ok a) = .crash := by
  simp [Ctx.loop, hm]

/-! ## C36 for Heavy -/

theorem replace_id {k v s : Text} (h : '$' ∉ s) : replace ('$' :: k) v s = s := by
  have := replace_part (pre := ['$']) (n := k) (v := v) (ps := [.done s]) (.inl rfl)
    (by intro p hp; rw [List.mem_singleton.mp hp]; exact fun c hc e => h (e ▸ hc))
    (by intro m hm; simp at hm)
  by_cases hk : ∀ c ∈ k, c ≠ '$'
  · have := this hk
    simpa [ptext, Part.text, bindPart] using this
  · have hno : NoMatch (fun _ t => ('$' :: k).isPrefixOf t) [] false s := by
      refine noMatch_of fun c hc b t => ?_
      by_contra hne
      have := List.isPrefixOf_iff_prefix.mp (Bool.of_not_eq_false hne)
      exact h ((List.cons_prefix_cons.mp this).1 ▸ hc)
    have := scan_pass (r := v) (len := ('$' :: k).length) s hno
    rw [List.append_nil] at this
    unfold replace
    rw [this]
    simp [scan]

theorem replace_self (k v : Text) : replace ('$' :: k) v ('$' :: k) = v := by
  have := scan_hit (p := fun _ t => ('$' :: k).isPrefixOf t) (a := '$' :: k) (rest := []) (r := v) (b := false) (by simp) (by simp)
  rw [List.append_nil] at this
  unfold replace
  rw [this]
  simp [scan]

/-- the text of the result: all replacements, one after the other -/
theorem heavyLoop_text {as : List (Text × Arg)} (h : ∀ a ∈ as, '$' ∉ a.2.text) (s : Text) :
    (heavyLoop as s).text = as.foldl (fun s a => replace ('$' :: a.1) a.2.text s) s := by
  have hid : ∀ (as : List (Text × Arg)) (s : Text), '$' ∉ s → as.foldl (fun s a => replace ('$' :: a.1) a.2.text s) s = s := by
    intro as
    induction as with
    | nil => intro s _; rfl
    | cons a as ih => intro s hs; rw [List.foldl_cons, replace_id hs, ih s hs]
  induction as generalizing s with
  | nil => rfl
  | cons a as ih =>
    obtain ⟨k, v⟩ := a
    simp only [heavyLoop, List.foldl_cons]
    by_cases e : s = '$' :: k
    · rw [if_pos e, e, replace_self, hid _ _ (h (k, v) (by simp))]
    · rw [if_neg e, ih fun a ha => h a (by simp [ha])]

theorem heavyLoop_or {as : List (Text × Arg)} (s : Text) : (∃ a ∈ as, heavyLoop as s = a.2) ∨ ∃ t, heavyLoop as s = .str t := by
  induction as generalizing s with
  | nil => exact .inr ⟨s, rfl⟩
  | cons a as ih =>
    obtain ⟨k, v⟩ := a
    simp only [heavyLoop]
    by_cases e : s = '$' :: k
    · rw [if_pos e]; exact .inl ⟨(k, v), by simp, rfl⟩
    · rw [if_neg e]
      rcases ih (replace ('$' :: k) v.text s) with ⟨a, ha, e⟩ | h
      · exact .inl ⟨a, by simp [ha], e⟩
      · exact .inr h

/-- the value of a name -/
def lookup (as : List (Text × Arg)) (n : Text) : Option Arg := (as.find? (·.1 = n)).map (·.2)

theorem lookup_some {as : List (Text × Arg)} {n : Text} (h : n ∈ as.map (·.1)) : ∃ v, lookup as n = some v ∧ (n, v) ∈ as := by
  induction as with
  | nil => simp at h
  | cons a as ih =>
    by_cases e : a.1 = n
    · exact ⟨a.2, by simp [lookup, e], by simp [← e]⟩
    · have h : n ∈ as.map (·.1) := by
        rcases List.mem_cons.mp (by simpa using h : n ∈ a.1 :: as.map (·.1)) with h | h
        · exact absurd h.symm e
        · exact h
      obtain ⟨v, hv, hm⟩ := ih h
      exact ⟨v, by rw [← hv]; simp [lookup, e], by simp [hm]⟩

/-- the text of a name; a name that is not known stays -/
def known (as : List (Text × Arg)) (n : Text) : Text :=
  match lookup as n with
  | some v => v.text
  | none => '$' :: n

theorem lookup_of_mem {as : List (Text × Arg)} (hnd : (as.map (·.1)).Nodup) {n : Text} {v : Arg} (h : (n, v) ∈ as) : lookup as n = some v := by
  induction as with
  | nil => simp at h
  | cons a as ih =>
    rw [List.map_cons, List.nodup_cons] at hnd
    rcases List.mem_cons.mp h with rfl | h
    · simp [lookup]
    · have : a.1 ≠ n := fun e => hnd.1 (List.mem_map.mpr ⟨_, h, e.symm⟩)
      rw [← ih hnd.2 h]
      simp [lookup, this]

theorem foldl_parts {f : Text → Text} (as : List (Text × Arg)) (ps : List Part) (h : ∀ p ∈ ps, p.Ok)
    (has : ∀ a ∈ as, (∀ c ∈ a.1, c ≠ '$') ∧ a.2.text = f a.1 ∧ ∀ d ∈ f a.1, d ≠ '$')
    (hpf : ∀ a ∈ as, ∀ m, Part.tok (.ref m) ∈ ps → m <+: a.1 ∨ a.1 <+: m → m = a.1) :
    as.foldl (fun s a => replace ('$' :: a.1) a.2.text s) (ptext ['$'] ps) = ptext ['$'] (ps.map (done f (as.map (·.1)))) := by
  induction as generalizing ps with
  | nil =>
    rw [List.foldl_nil, List.map_nil, List.map_congr_left (g := id) fun p _ => done_nil f p, List.map_id]
  | cons a as ih =>
    obtain ⟨hn, hv, hf⟩ := has a (by simp)
    rw [List.foldl_cons, show ('$' :: a.1 : Text) = ['$'] ++ a.1 from rfl, replace_part (.inl rfl) h (hpf a (by simp)) hn, ih]
    · rw [List.map_map, hv]
      congr 1
      exact List.map_congr_left fun p _ => done_cons f a.1 _ p
    · intro p hp
      obtain ⟨q, hq, rfl⟩ := List.mem_map.mp hp
      exact bindPart_ok (hv ▸ hf) (h q hq)
    · exact fun m hm => has m (by simp [hm])
    · intro k hk m hm
      obtain ⟨q, hq, e⟩ := List.mem_map.mp hm
      rw [bindPart_ref e] at hq
      exact hpf k (by simp [hk]) m hq

/-- names and characters without `$` -/
def Tok.Plain : Tok → Prop
  | .ref n => '$' ∉ n
  | .chr c => c ≠ '$'

theorem heavy_text {as : List (Text × Arg)} {ts : List Tok} (hts : ∀ t ∈ ts, t.Plain) (hnd : (as.map (·.1)).Nodup)
    (has : ∀ a ∈ as, '$' ∉ a.1 ∧ '$' ∉ a.2.text)
    (hpf : ∀ a ∈ as, ∀ m ∈ refs ts, m <+: a.1 ∨ a.1 <+: m → m = a.1) :
    (heavyLoop as (text ['$'] ts)).text = ptext ['$'] ((ts.map Part.tok).map (done (known as) (as.map (·.1)))) := by
  rw [heavyLoop_text fun a ha => (has a ha).2, text_parts, foldl_parts (f := known as)]
  · intro p hp
    obtain ⟨t, ht, rfl⟩ := List.mem_map.mp hp
    have := hts t ht
    match t, this with
    | .ref n, h => exact fun c hc e => h (e ▸ hc)
    | .chr c, h => exact h
  · intro a ha
    have hk : known as a.1 = a.2.text := by rw [known, lookup_of_mem hnd ha]
    refine ⟨fun c hc e => (has a ha).1 (e ▸ hc), hk.symm, ?_⟩
    rw [hk]
    exact fun c hc e => (has a ha).2 (e ▸ hc)
  · intro a ha m hm
    obtain ⟨t, ht, e⟩ := List.mem_map.mp hm
    exact hpf a ha m (mem_refs.mpr (by injection e with e; exact e ▸ ht))

/-- In an argument of a Heavy object all names that the graph knows are replaced by the text of their values, at once. -/
theorem heavy_args_partial {as : List (Text × Arg)} {ts : List Tok} (hts : ∀ t ∈ ts, t.Plain) (hnd : (as.map (·.1)).Nodup)
    (has : ∀ a ∈ as, '$' ∉ a.1 ∧ '$' ∉ a.2.text)
    (hpf : ∀ a ∈ as, ∀ m ∈ refs ts, m <+: a.1 ∨ a.1 <+: m → m = a.1)
    (hall : ∀ n ∈ refs ts, n ∈ as.map (·.1)) :
    ∃ v, heavyResolve as (text ['$'] ts) = some v ∧ v.text = subst (known as) ts := by
  have ht := heavy_text hts hnd has hpf
  rw [done_text ts hall] at ht
  have hno : '$' ∉ subst (known as) ts := by
    intro hmem
    obtain ⟨t, hmt, hc⟩ := List.mem_flatMap.mp hmem
    match t, hmt, hc with
    | .ref n, hmt, hc =>
      obtain ⟨v, hv, hm⟩ := lookup_some (hall n (mem_refs.mpr hmt))
      have hc : '$' ∈ known as n := hc
      rw [known, hv] at hc
      exact (has _ hm).2 hc
    | .chr c, hmt, hc =>
      have hc : '$' ∈ [c] := hc
      exact hts _ hmt (List.mem_singleton.mp hc).symm
  unfold heavyResolve
  by_cases hd : '$' ∈ text ['$'] ts
  · rw [if_pos hd]
    generalize heavyLoop as (text ['$'] ts) = v at ht
    match v, ht with
    | .str t, ht =>
      have ht : t = subst (known as) ts := ht
      exact ⟨.str t, by simp only; rw [if_neg (ht ▸ hno)], ht⟩
    | .other x t, ht => exact ⟨_, rfl, ht⟩
  · rw [if_neg hd]
    have hn : ∀ t ∈ ts, ∀ n, t ≠ .ref n := by
      rintro t ht n rfl
      exact hd (List.mem_flatMap.mpr ⟨_, ht, by simp [Tok.text]⟩)
    refine ⟨_, rfl, ?_⟩
    clear ht hno hd hall hpf hts
    induction ts with
    | nil => rfl
    | cons t ts ih =>
      have ih := ih fun t ht => hn t (by simp [ht])
      match t, hn t (by simp) with
      | .ref n, h => exact absurd rfl (h n)
      | .chr c, _ =>
        simp only [Arg.text] at ih
        simp [text, subst, Tok.text, Arg.text] at ih ⊢
        exact ih

/-- An argument that is a single name keeps the type of its value: a number stays a number. -/
theorem heavy_whole_partial {as : List (Text × Arg)} {n : Text} {v : Arg} (hnd : (as.map (·.1)).Nodup)
    (has : ∀ a ∈ as, '$' ∉ a.1 ∧ '$' ∉ a.2.text) (hpf : ∀ a ∈ as, n <+: a.1 ∨ a.1 <+: n → n = a.1) (h : (n, v) ∈ as) :
    heavyResolve as ('$' :: n) = some v := by
  have hl : heavyLoop as ('$' :: n) = v := by
    induction as with
    | nil => simp at h
    | cons a as ih =>
      obtain ⟨k, w⟩ := a
      rw [List.map_cons, List.nodup_cons] at hnd
      simp only [heavyLoop]
      by_cases e : n = k
      · subst e
        rw [if_pos rfl]
        rcases List.mem_cons.mp h with h | h
        · exact (Prod.mk.inj h).2.symm
        · exact absurd (List.mem_map.mpr ⟨_, h, rfl⟩) hnd.1
      · rw [if_neg fun h => e (List.cons.inj h).2]
        have hm : (n, v) ∈ as := by
          rcases List.mem_cons.mp h with h | h
          · exact absurd (Prod.mk.inj h).1 e
          · exact h
        have hn := (has _ h).1
        have hr : replace ('$' :: k) w.text ('$' :: n) = '$' :: n := by
          have := replace_part (pre := ['$']) (n := k) (v := w.text) (ps := [.tok (.ref n)]) (.inl rfl)
            (by intro p hp; rw [List.mem_singleton.mp hp]; exact fun c hc e => hn (e ▸ hc))
            (by
              intro m hm hp
              have : m = n := by simpa using hm
              subst this
              exact hpf (k, w) (by simp) hp)
            (fun c hc e => (has _ (List.mem_cons_self)).1 (e ▸ hc))
          simpa [ptext, Part.text, Tok.text, bindPart, e] using this
        rw [hr]
        exact ih hnd.2 (fun a ha => has a (by simp [ha])) (fun a ha => hpf a (by simp [ha])) hm
  have hv := (has _ h).2
  unfold heavyResolve
  rw [if_pos (by simp), hl]
  match v, hv with
  | .str t, hv => simp only; rw [if_neg (by simpa [Arg.text] using hv)]
  | .other x t, _ => rfl

/-- An argument with a name that the graph does not know is removed, so that the default of the object applies. -/
theorem heavy_unknown {as : List (Text × Arg)} {ts : List Tok} (hts : ∀ t ∈ ts, t.Plain) (hnd : (as.map (·.1)).Nodup)
    (has : ∀ a ∈ as, '$' ∉ a.1 ∧ '$' ∉ a.2.text)
    (hpf : ∀ a ∈ as, ∀ m ∈ refs ts, m <+: a.1 ∨ a.1 <+: m → m = a.1)
    {n : Text} (hn : n ∈ refs ts) (hu : n ∉ as.map (·.1)) :
    heavyResolve as (text ['$'] ts) = none := by
  have ht := heavy_text hts hnd has hpf
  have hmem : '$' ∈ (heavyLoop as (text ['$'] ts)).text := by
    rw [ht]
    refine List.mem_flatMap.mpr ⟨.tok (.ref n), List.mem_map.mpr ⟨.tok (.ref n), List.mem_map.mpr ⟨_, mem_refs.mp hn, rfl⟩, ?_⟩, by simp [Part.text, Tok.text]⟩
    rw [done, if_neg hu]
  have hd : '$' ∈ text ['$'] ts := List.mem_flatMap.mpr ⟨_, mem_refs.mp hn, by simp [Tok.text]⟩
  unfold heavyResolve
  rw [if_pos hd]
  rcases heavyLoop_or (as := as) (text ['$'] ts) with ⟨a, ha, e⟩ | ⟨t, e⟩
  · rw [e] at hmem
    exact absurd hmem (has a ha).2
  · rw [e] at hmem ⊢
    have hmem : '$' ∈ t := hmem
    simp only
    rw [if_pos hmem]

/-- The claim is false without the condition on prefixes: with arguments `f` and `fm`, the name `fm` is read as `f` followed by `m`. -/
theorem heavy_prefix :
    heavyResolve [("f".toList, .other 440 "440.0".toList), ("fm".toList, .other 2 "2.0".toList)] "$fm".toList = some (.str "440.0m".toList) := by
  decide +kernel

/-- a concrete case -/
example : heavyResolve [("name".toList, .str "tbl".toList), ("size".toList, .other 100 "100".toList)] "$name-$size".toList = some (.str "tbl-100".toList) ∧
    heavyResolve [("name".toList, .str "tbl".toList), ("size".toList, .other 100 "100".toList)] "$size".toList = some (.other 100 "100".toList) ∧
    heavyResolve [("name".toList, .str "tbl".toList), ("size".toList, .other 100 "100".toList)] "$name-$x".toList = none := by
  decide +kernel

example : ∃ v, heavyResolve [("name".toList, .str "tbl".toList), ("size".toList, .other 100 "100".toList)] "$name-$size".toList = some v ∧ v.text = "tbl-100".toList := by
  obtain ⟨v, hv, e⟩ := heavy_args_partial (as := [("name".toList, .str "tbl".toList), ("size".toList, .other 100 "100".toList)])
    (ts := [.ref "name".toList, .chr '-', .ref "size".toList])
    (by intro t ht; have : t = .ref "name".toList ∨ t = .chr '-' ∨ t = .ref "size".toList := by simpa using ht
        rcases this with rfl | rfl | rfl <;> simp only [Tok.Plain] <;> decide +kernel)
    (by decide +kernel) (by decide +kernel)
    (by
      intro a ha m hm
      have hm : m = "name".toList ∨ m = "size".toList := by simpa [refs] using hm
      have ha : a = ("name".toList, .str "tbl".toList) ∨ a = ("size".toList, .other 100 "100".toList) := by simpa using ha
      rcases ha with rfl | rfl <;> rcases hm with rfl | rfl <;> decide +kernel)
    (by
      intro m hm
      have hm : m = "name".toList ∨ m = "size".toList := by simpa [refs] using hm
      rcases hm with rfl | rfl <;> decide +kernel)
  exact ⟨v, by rw [← hv]; decide +kernel, by rw [e]; decide +kernel⟩

end Verif.Dollar
