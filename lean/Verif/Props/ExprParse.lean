import Verif.ExprParse
import Verif.Props.ExprSig
import Mathlib.Tactic.IntervalCases
/-!
C63: specification and proofs.
-/
namespace Verif.ExprParse

/-! ## Specification: how an expression is written -/

/-- spaces, tabs and line ends -/
def Blank (w : Text) : Prop := ∀ c ∈ w, c = ' ' ∨ c = '\t' ∨ c = '\n' ∨ c = '\r'

/-- one or more decimal digits -/
def Digits (d : Text) : Prop := d ≠ [] ∧ ∀ c ∈ d, '0' ≤ c ∧ c ≤ '9'

/-- a grammar of operators: the number of levels of precedence, the operators of each level (0 binds least), and the level at which
the left operand of an operator is written (its own level: operators associate to the left) -/
structure Grammar where
  levels : Nat
  ops : Nat → List Text
  left : Nat → Nat

/-- `Writes G k e s`: the text `s` is a way to write the expression `e` at level `k` of the grammar; white space is allowed before
every symbol; a function name is immediately followed by its parenthesis -/
inductive Writes (G : Grammar) : Nat → Node → Text → Prop
  /-- an expression of the next level -/
  | up {k e s} : k ≤ G.levels → Writes G (k + 1) e s → Writes G k e s
  /-- `a o b` -/
  | bin {k o a b s w t} : k < G.levels → o ∈ G.ops k → Writes G (G.left k) a s → Blank w → Writes G (k + 1) b t →
      Writes G k (.bin o a b) (s ++ w ++ o ++ t)
  /-- `o a` -/
  | un {o a w s} : o ∈ [['-'], ['~'], ['!']] → Blank w → Writes G G.levels a s → Writes G G.levels (.un o a) (w ++ o ++ s)
  /-- `123` -/
  | int {w d} : Blank w → Digits d → Writes G (G.levels + 1) (.num false d) (w ++ d)
  /-- `123.45` -/
  | float {w d f} : Blank w → Digits d → Digits f → Writes G (G.levels + 1) (.num true (d ++ '.' :: f)) (w ++ d ++ '.' :: f)
  /-- `$v1` -/
  | var {w k d} : Blank w → k ∈ ['f', 'i', 's', 'v'] → Digits d → Writes G (G.levels + 1) (.var ('$' :: k :: d)) (w ++ '$' :: k :: d)
  /-- `(e)` -/
  | group {w e s w'} : Blank w → Writes G 0 e s → Blank w' → Writes G (G.levels + 1) e (w ++ '(' :: s ++ w' ++ [')'])
  /-- `f(a)` -/
  | fn1 {w f a s w'} : Blank w → f ∈ names → Writes G 0 a s → Blank w' →
      Writes G (G.levels + 1) (.fn1 f a) (w ++ f ++ '(' :: s ++ w' ++ [')'])
  /-- `f(a\, b)` -/
  | fn2 {w f a s w' b t w''} : Blank w → f ∈ names → Writes G 0 a s → Blank w' → Writes G 0 b t → Blank w'' →
      Writes G (G.levels + 1) (.fn2 f a b) (w ++ f ++ '(' :: s ++ w' ++ '\\' :: ',' :: t ++ w'' ++ [')'])
  /-- `f(a\, b\, c)` -/
  | fn3 {w f a s w' b t w'' c u w'''} : Blank w → f ∈ names → Writes G 0 a s → Blank w' → Writes G 0 b t → Blank w'' →
      Writes G 0 c u → Blank w''' →
      Writes G (G.levels + 1) (.fn3 f a b c)
        (w ++ f ++ '(' :: s ++ w' ++ '\\' :: ',' :: t ++ w'' ++ '\\' :: ',' :: u ++ w''' ++ [')'])

/-- the operators of C (and of Pd's expr) with their precedence and associativity -/
def C : Grammar where
  levels := 10
  ops k := ([["||"], ["&&"], ["|"], ["^"], ["&"], ["==", "!="], ["<", ">", "<=", ">="], ["<<", ">>"], ["+", "-"],
    ["*", "/", "%"]].map (·.map String.toList)).getD k []
  left k := k

/-- C, without a comparison whose left operand is a comparison that is not in parentheses -/
def CNoChain : Grammar := { C with left := fun k => if k = 6 then 7 else k }

/-- the grammar of hvcc: `<=` and `>=` bind less than `<` and `>` -/
def Hv : Grammar where
  levels := 11
  ops k := ([["||"], ["&&"], ["|"], ["^"], ["&"], ["==", "!="], ["<=", ">="], ["<", ">"], ["<<", ">>"], ["+", "-"],
    ["*", "/", "%"]].map (·.map String.toList)).getD k []
  left k := k

/-! ## Texts -/

theorem isWs_iff {c : Char} : isWs c = true ↔ c = ' ' ∨ c = '\t' ∨ c = '\n' ∨ c = '\r' := by simp [isWs, or_assoc]

theorem isDigit_iff {c : Char} : isDigit c = true ↔ '0' ≤ c ∧ c ≤ '9' := by simp [isDigit]

theorem dropWhile_app {p : Char → Bool} {d r : Text} (hd : ∀ c ∈ d, p c = true) (hr : ∀ c t, r = c :: t → p c = false) :
    (d ++ r).dropWhile p = r ∧ (d ++ r).takeWhile p = d := by
  induction d with
  | nil => cases r with
    | nil => exact ⟨rfl, rfl⟩
    | cons c t => simp [hr c t rfl]
  | cons x d ih =>
    have := ih (fun c h => hd c (List.mem_cons_of_mem _ h))
    simp [hd x (List.mem_cons_self ..), this]

theorem takeWhile_all {p : Char → Bool} (s : Text) : ∀ c ∈ s.takeWhile p, p c = true := by
  induction s with
  | nil => simp
  | cons x s ih =>
    intro c hc
    by_cases hx : p x = true
    · rw [List.takeWhile_cons_of_pos hx] at hc
      rcases List.mem_cons.mp hc with rfl | h
      · exact hx
      · exact ih c h
    · rw [List.takeWhile_cons_of_neg hx] at hc
      exact absurd hc (by simp)

theorem skip_spec (s : Text) : ∃ w, Blank w ∧ s = w ++ skip s :=
  ⟨s.takeWhile isWs, fun c h => isWs_iff.mp (takeWhile_all s c h), (List.takeWhile_append_dropWhile ..).symm⟩

theorem skip_app {w : Text} {c : Char} {t : Text} (hw : Blank w) (hc : isWs c = false) : skip (w ++ c :: t) = c :: t :=
  (dropWhile_app (fun x h => isWs_iff.mpr (hw x h)) (by rintro _ _ ⟨⟩; exact hc)).1

theorem skip_blank {w : Text} (hw : Blank w) : skip w = [] := by
  have := (dropWhile_app (p := isWs) (d := w) (r := []) (fun x h => isWs_iff.mpr (hw x h)) (by simp)).1
  simpa [skip] using this

theorem skip_head {s : Text} {c : Char} {t : Text} (h : skip s = c :: t) : isWs c = false := by
  have : ∀ s : Text, ∀ c t, s.dropWhile isWs = c :: t → isWs c = false := by
    intro s
    induction s with
    | nil => simp
    | cons x s ih =>
      intro c t h
      by_cases hx : isWs x = true
      · rw [List.dropWhile_cons_of_pos hx] at h; exact ih c t h
      · rw [List.dropWhile_cons_of_neg hx] at h
        cases h
        simpa using hx
  exact this s c t h

theorem lit_iff {t s r : Text} : lit t s = some r ↔ skip s = t ++ r := by
  unfold lit
  constructor
  · intro h
    split at h
    · rename_i hp
      cases h
      obtain ⟨u, hu⟩ := List.isPrefixOf_iff_prefix.mp hp
      rw [← hu]; simp
    · exact absurd h (by simp)
  · intro h
    rw [h, if_pos (List.isPrefixOf_iff_prefix.mpr ⟨r, rfl⟩)]
    simp

theorem lit_none {t s : Text} (h : ∀ r, skip s ≠ t ++ r) : lit t s = none := by
  cases hl : lit t s with
  | none => rfl
  | some r => exact absurd (lit_iff.mp hl) (h r)

theorem firstOf_some {os : List Text} {s o r : Text} (h : firstOf os s = some (o, r)) : o ∈ os ∧ skip s = o ++ r := by
  induction os with
  | nil => exact absurd h (by simp [firstOf])
  | cons x os ih =>
    unfold firstOf at h
    cases hl : lit x s with
    | none => rw [hl] at h; exact ⟨List.mem_cons_of_mem _ (ih h).1, (ih h).2⟩
    | some r' => rw [hl] at h; cases h; exact ⟨List.mem_cons_self .., lit_iff.mp hl⟩

theorem firstOf_none {os : List Text} {s : Text} (h : ∀ o ∈ os, ∀ r, skip s ≠ o ++ r) : firstOf os s = none := by
  cases hf : firstOf os s with
  | none => rfl
  | some x => exact absurd (firstOf_some (o := x.1) (r := x.2) hf).2 (h _ (firstOf_some (o := x.1) (r := x.2) hf).1 _)

theorem numF_some {s t r : Text} (h : numF s = some (t, r)) :
    ∃ w d f, Blank w ∧ Digits d ∧ Digits f ∧ t = d ++ '.' :: f ∧ s = w ++ d ++ '.' :: f ++ r := by
  obtain ⟨w, hw, hs⟩ := skip_spec s
  unfold numF at h
  split at h
  · rename_i d ds r' hd hr
    split at h
    · exact absurd h (by simp)
    · rename_i e es he
      cases h
      refine ⟨w, d :: ds, e :: es, hw, ⟨by simp, fun c hc => ?_⟩, ⟨by simp, fun c hc => ?_⟩, by simp, ?_⟩
      · exact isDigit_iff.mp (takeWhile_all (skip s) c (hd ▸ hc))
      · exact isDigit_iff.mp (takeWhile_all r' c (he ▸ hc))
      · conv => lhs; rw [hs, ← List.takeWhile_append_dropWhile (p := isDigit) (l := skip s), hd, hr,
          ← List.takeWhile_append_dropWhile (p := isDigit) (l := r'), he]
        simp
  · exact absurd h (by simp)

theorem numI_some {s t r : Text} (h : numI s = some (t, r)) : ∃ w, Blank w ∧ Digits t ∧ s = w ++ t ++ r := by
  obtain ⟨w, hw, hs⟩ := skip_spec s
  unfold numI at h
  split at h
  · exact absurd h (by simp)
  · rename_i d ds hd
    cases h
    refine ⟨w, hw, ⟨by simp, fun c hc => isDigit_iff.mp (takeWhile_all (skip s) c (hd ▸ hc))⟩, ?_⟩
    conv => lhs; rw [hs, ← List.takeWhile_append_dropWhile (p := isDigit) (l := skip s), hd]
    simp

theorem varAt_some {s t r : Text} (h : varAt s = some (t, r)) :
    ∃ w k d, Blank w ∧ k ∈ ['f', 'i', 's', 'v'] ∧ Digits d ∧ t = '$' :: k :: d ∧ s = w ++ '$' :: k :: d ++ r := by
  obtain ⟨w, hw, hs⟩ := skip_spec s
  unfold varAt at h
  split at h
  · rename_i k r' hd
    split at h
    · rename_i e es hk he
      cases h
      refine ⟨w, k, e :: es, hw, by simpa [isKind, or_assoc] using hk,
        ⟨by simp, fun c hc => isDigit_iff.mp (takeWhile_all r' c (he ▸ hc))⟩, rfl, ?_⟩
      conv => lhs; rw [hs, hd, ← List.takeWhile_append_dropWhile (p := isDigit) (l := r'), he]
      simp
    · exact absurd h (by simp)
  · exact absurd h (by simp)

theorem fName_some {ns : List Text} {s f r : Text} (h : fName ns s = some (f, r)) :
    f ∈ ns ∧ skip s = f ++ r ∧ ∃ r', r = '(' :: r' := by
  induction ns with
  | nil => exact absurd h (by simp [fName])
  | cons n ns ih =>
    unfold fName at h
    split at h
    · rename_i hp
      cases h
      obtain ⟨u, hu⟩ := List.isPrefixOf_iff_prefix.mp hp
      refine ⟨List.mem_cons_self .., ?_, u, ?_⟩ <;> rw [← hu] <;> simp
    · obtain ⟨h1, h2⟩ := ih h
      exact ⟨List.mem_cons_of_mem _ h1, h2⟩

theorem Res.bind_ok {α β : Type} {x : Res α} {f : α → Text → Res β} {b : β} {r : Text} (h : x.bind f = .ok b r) :
    ∃ a r', x = .ok a r' ∧ f a r' = .ok b r := by
  cases x with
  | ok a r' => exact ⟨a, r', rfl, h⟩
  | fail => exact absurd h (by simp [Res.bind])
  | late => exact absurd h (by simp [Res.bind])

theorem Res.orElse_ok {α : Type} {x y : Res α} {b : α} {r : Text} (h : x.orElse y = .ok b r) : x = .ok b r ∨ y = .ok b r := by
  cases x with
  | ok a r' => exact .inl h
  | fail => exact .inr h
  | late => exact absurd h (by simp [Res.orElse])

theorem term_ok {α : Type} {x : Option (α × Text)} {a : α} {r : Text} (h : term x = .ok a r) : x = some (a, r) := by
  unfold term at h
  split at h
  · cases h; rfl
  · exact absurd h (by simp)

theorem hide_ok {t s r : Text} {u : Unit} (h : hide t s = .ok u r) : skip s = t ++ r := by
  unfold hide at h
  split at h
  · rename_i hl; cases h; exact lit_iff.mp hl
  · exact absurd h (by simp)

theorem skip_eq {s t : Text} (h : skip s = t) : ∃ w, Blank w ∧ s = w ++ t := by
  obtain ⟨w, hw, hs⟩ := skip_spec s
  exact ⟨w, hw, h ▸ hs⟩

/-! ## Soundness -/

theorem ops_eq {k : Nat} (h : k < 11) : ops k = Hv.ops k := by interval_cases k <;> rfl

/-- `a o b o' c …` after the first operand -/
inductive Tail (k : Nat) : List (Text × Node) → Text → Prop
  | nil : Tail k [] []
  | cons {o b w t xs p} : o ∈ Hv.ops k → Blank w → Writes Hv (k + 1) b t → Tail k xs p → Tail k ((o, b) :: xs) (w ++ o ++ t ++ p)

theorem Tail.writes {k : Nat} (hk : k < 11) {xs : List (Text × Node)} {p : Text} (h : Tail k xs p) :
    ∀ {a s}, Writes Hv k a s → Writes Hv k (chain a xs) (s ++ p) := by
  induction h with
  | nil => intro a s ha; simpa [chain] using ha
  | cons ho hw hb _ ih =>
    intro a s ha
    have := ih (Writes.bin (G := Hv) hk ho ha hw hb)
    simpa [chain, List.append_assoc] using this

theorem sound (n : Nat) :
    (∀ k s e r, k ≤ 11 → level n k s = .ok e r → ∃ p, s = p ++ r ∧ Writes Hv k e p) ∧
    (∀ k s xs r, k < 11 → many n k s = .ok xs r → ∃ p, s = p ++ r ∧ Tail k xs p) ∧
    (∀ s e r, unary n s = .ok e r → ∃ p, s = p ++ r ∧ Writes Hv 11 e p) ∧
    (∀ s e r, primary n s = .ok e r → ∃ p, s = p ++ r ∧ Writes Hv 12 e p) ∧
    (∀ s e r, func n s = .ok e r → ∃ p, s = p ++ r ∧ Writes Hv 12 e p) := by
  induction n with
  | zero => refine ⟨?_, ?_, ?_, ?_, ?_⟩ <;> intros <;> simp_all [level, many, unary, primary, func]
  | succ n ih =>
    obtain ⟨ihl, ihm, ihu, ihp, ihf⟩ := ih
    refine ⟨?_, ?_, ?_, ?_, ?_⟩
    · intro k s e r hk h
      unfold level at h
      split at h
      · rename_i hk'
        obtain ⟨a, r1, h1, h2⟩ := Res.bind_ok h
        obtain ⟨xs, r2, h3, h4⟩ := Res.bind_ok h2
        cases h4
        obtain ⟨p, hp, hw⟩ := ihl _ _ _ _ hk' h1
        obtain ⟨q, hq, ht⟩ := ihm _ _ _ _ hk' h3
        exact ⟨p ++ q, by rw [hp, hq]; simp, ht.writes hk' (.up hk hw)⟩
      · obtain rfl : k = 11 := by omega
        exact ihu _ _ _ h
    · intro k s xs r hk h
      unfold many at h
      rcases Res.orElse_ok h with h | h
      · obtain ⟨⟨o, b⟩, r1, h1, h2⟩ := Res.bind_ok h
        obtain ⟨ys, r2, h3, h4⟩ := Res.bind_ok h2
        cases h4
        obtain ⟨o', r3, h5, h6⟩ := Res.bind_ok h1
        obtain ⟨b', r4, h7, h8⟩ := Res.bind_ok h6
        cases h8
        obtain ⟨ho, hs⟩ := firstOf_some (term_ok h5)
        obtain ⟨w, hw, hs⟩ := skip_eq hs
        obtain ⟨p, hp, hb⟩ := ihl _ _ _ _ (by omega) h7
        obtain ⟨q, hq, ht⟩ := ihm _ _ _ _ hk h3
        exact ⟨w ++ o ++ p ++ q, by rw [hs, hp, hq]; simp, .cons (ops_eq hk ▸ ho) hw hb ht⟩
      · cases h
        exact ⟨[], rfl, .nil⟩
    · intro s e r h
      unfold unary at h
      rcases Res.orElse_ok h with h | h
      · obtain ⟨o, r1, h1, h2⟩ := Res.bind_ok h
        obtain ⟨a, r2, h3, h4⟩ := Res.bind_ok h2
        cases h4
        obtain ⟨ho, hs⟩ := firstOf_some (term_ok h1)
        obtain ⟨w, hw, hs⟩ := skip_eq hs
        obtain ⟨p, hp, hb⟩ := ihu _ _ _ h3
        exact ⟨w ++ o ++ p, by rw [hs, hp]; simp, Writes.un (G := Hv) ho hw hb⟩
      · obtain ⟨p, hp, hb⟩ := ihp _ _ _ h
        exact ⟨p, hp, .up (Nat.le_refl 11) hb⟩
    · intro s e r h
      unfold primary at h
      rcases Res.orElse_ok h with h | h
      · obtain ⟨t, r1, h1, h2⟩ := Res.bind_ok h
        cases h2
        obtain ⟨w, d, f, hw, hd, hf, rfl, hs⟩ := numF_some (term_ok h1)
        exact ⟨_, hs, Writes.float (G := Hv) hw hd hf⟩
      rcases Res.orElse_ok h with h | h
      · obtain ⟨t, r1, h1, h2⟩ := Res.bind_ok h
        cases h2
        obtain ⟨w, hw, hd, hs⟩ := numI_some (term_ok h1)
        exact ⟨_, hs, Writes.int (G := Hv) hw hd⟩
      rcases Res.orElse_ok h with h | h
      · obtain ⟨t, r1, h1, h2⟩ := Res.bind_ok h
        cases h2
        obtain ⟨w, k, d, hw, hk, hd, rfl, hs⟩ := varAt_some (term_ok h1)
        exact ⟨_, hs, Writes.var (G := Hv) hw hk hd⟩
      rcases Res.orElse_ok h with h | h
      · exact ihf _ _ _ h
      · obtain ⟨_, r1, h1, h⟩ := Res.bind_ok h
        obtain ⟨a, r2, h2, h⟩ := Res.bind_ok h
        obtain ⟨_, r3, h3, h⟩ := Res.bind_ok h
        cases h
        obtain ⟨w, hw, hs⟩ := skip_eq (hide_ok h1)
        obtain ⟨p, hp, hb⟩ := ihl _ _ _ _ (by omega) h2
        obtain ⟨w', hw', hs'⟩ := skip_eq (hide_ok h3)
        exact ⟨w ++ '(' :: p ++ w' ++ [')'], by rw [hs, hp, hs']; simp, Writes.group (G := Hv) hw hb hw'⟩
    · intro s e r h
      unfold func at h
      rcases Res.orElse_ok h with h | h
      · obtain ⟨f, r0, h0, h⟩ := Res.bind_ok h
        obtain ⟨_, r1, h1, h⟩ := Res.bind_ok h
        obtain ⟨a, r2, h2, h⟩ := Res.bind_ok h
        obtain ⟨_, r3, h3, h⟩ := Res.bind_ok h
        cases h
        obtain ⟨hf, hs, r', rfl⟩ := fName_some (term_ok h0)
        obtain ⟨w, hw, hs⟩ := skip_eq hs
        have e1 := hide_ok h1
        have e1' : '(' :: r' = '(' :: r1 := (skip_app (w := []) (by simp [Blank]) rfl).symm.trans e1
        cases e1'
        obtain ⟨p, hp, hb⟩ := ihl _ _ _ _ (by omega) h2
        obtain ⟨w', hw', hs'⟩ := skip_eq (hide_ok h3)
        exact ⟨w ++ f ++ '(' :: p ++ w' ++ [')'], by rw [hs, hp, hs']; simp, Writes.fn1 (G := Hv) hw hf hb hw'⟩
      rcases Res.orElse_ok h with h | h
      · obtain ⟨f, r0, h0, h⟩ := Res.bind_ok h
        obtain ⟨_, r1, h1, h⟩ := Res.bind_ok h
        obtain ⟨a, r2, h2, h⟩ := Res.bind_ok h
        obtain ⟨_, r3, h3, h⟩ := Res.bind_ok h
        obtain ⟨b, r4, h4, h⟩ := Res.bind_ok h
        obtain ⟨_, r5, h5, h⟩ := Res.bind_ok h
        cases h
        obtain ⟨hf, hs, r', rfl⟩ := fName_some (term_ok h0)
        obtain ⟨w, hw, hs⟩ := skip_eq hs
        have e1 := hide_ok h1
        have e1' : '(' :: r' = '(' :: r1 := (skip_app (w := []) (by simp [Blank]) rfl).symm.trans e1
        cases e1'
        obtain ⟨p, hp, hb⟩ := ihl _ _ _ _ (by omega) h2
        obtain ⟨w', hw', hs'⟩ := skip_eq (hide_ok h3)
        obtain ⟨q, hq, hb'⟩ := ihl _ _ _ _ (by omega) h4
        obtain ⟨w'', hw'', hs''⟩ := skip_eq (hide_ok h5)
        exact ⟨w ++ f ++ '(' :: p ++ w' ++ '\\' :: ',' :: q ++ w'' ++ [')'], by rw [hs, hp, hs', hq, hs'']; simp,
          Writes.fn2 (G := Hv) hw hf hb hw' hb' hw''⟩
      · obtain ⟨f, r0, h0, h⟩ := Res.bind_ok h
        obtain ⟨_, r1, h1, h⟩ := Res.bind_ok h
        obtain ⟨a, r2, h2, h⟩ := Res.bind_ok h
        obtain ⟨_, r3, h3, h⟩ := Res.bind_ok h
        obtain ⟨b, r4, h4, h⟩ := Res.bind_ok h
        obtain ⟨_, r5, h5, h⟩ := Res.bind_ok h
        obtain ⟨c, r6, h6, h⟩ := Res.bind_ok h
        obtain ⟨_, r7, h7, h⟩ := Res.bind_ok h
        cases h
        obtain ⟨hf, hs, r', rfl⟩ := fName_some (term_ok h0)
        obtain ⟨w, hw, hs⟩ := skip_eq hs
        have e1 := hide_ok h1
        have e1' : '(' :: r' = '(' :: r1 := (skip_app (w := []) (by simp [Blank]) rfl).symm.trans e1
        cases e1'
        obtain ⟨p, hp, hb⟩ := ihl _ _ _ _ (by omega) h2
        obtain ⟨w', hw', hs'⟩ := skip_eq (hide_ok h3)
        obtain ⟨q, hq, hb'⟩ := ihl _ _ _ _ (by omega) h4
        obtain ⟨w'', hw'', hs''⟩ := skip_eq (hide_ok h5)
        obtain ⟨q', hq', hb''⟩ := ihl _ _ _ _ (by omega) h6
        obtain ⟨w3, hw3, hs3⟩ := skip_eq (hide_ok h7)
        exact ⟨w ++ f ++ '(' :: p ++ w' ++ '\\' :: ',' :: q ++ w'' ++ '\\' :: ',' :: q' ++ w3 ++ [')'],
          by rw [hs, hp, hs', hq, hs'', hq', hs3]; simp, Writes.fn3 (G := Hv) hw hf hb hw' hb' hw'' hb'' hw3⟩

/-! ## Completeness -/

/-- a character an operand can begin with -/
def starter (c : Char) : Bool :=
  isDigit c || c = '$' || c = '(' || c = '-' || c = '~' || c = '!' || ('a' ≤ c && c ≤ 'z')

theorem starter_ws {c : Char} (h : starter c = true) : isWs c = false := by
  cases hw : isWs c with
  | false => rfl
  | true => rcases isWs_iff.mp hw with rfl | rfl | rfl | rfl <;> exact absurd h (by decide)

theorem digit_starter {c : Char} (h : isDigit c = true) : starter c = true := by simp [starter, h]

theorem names_head {f : Text} (h : f ∈ names) : ∃ c t, f = c :: t ∧ 'a' ≤ c ∧ c ≤ 'z' := by
  have : ∀ f ∈ names, (f.head?.any fun c => 'a' ≤ c && c ≤ 'z') = true := by decide +kernel
  have := this f h
  cases f with
  | nil => exact absurd this (by simp)
  | cons c t => exact ⟨c, t, rfl, by simpa using this⟩

/-- every written expression begins, after white space, with a starter -/
theorem Writes.head {k : Nat} {e : Node} {s : Text} (h : Writes Hv k e s) :
    ∃ w c t, s = w ++ c :: t ∧ Blank w ∧ starter c = true := by
  have ext : ∀ {s : Text} (u : Text), (∃ w c t, s = w ++ c :: t ∧ Blank w ∧ starter c = true) →
      ∃ w c t, s ++ u = w ++ c :: t ∧ Blank w ∧ starter c = true := by
    rintro s u ⟨w, c, t, rfl, hw, hc⟩
    exact ⟨w, c, t ++ u, by simp, hw, hc⟩
  have dig : ∀ {w d : Text}, Blank w → Digits d → ∃ w' c t, w ++ d = w' ++ c :: t ∧ Blank w' ∧ starter c = true := by
    intro w d hw hd
    cases d with
    | nil => exact absurd rfl hd.1
    | cons c t => exact ⟨w, c, t, rfl, hw, digit_starter (isDigit_iff.mpr (hd.2 c (List.mem_cons_self ..)))⟩
  have nam : ∀ {w f : Text}, Blank w → f ∈ names → ∃ w' c t, w ++ f = w' ++ c :: t ∧ Blank w' ∧ starter c = true := by
    intro w f hw hf
    obtain ⟨c, t, rfl, h1, h2⟩ := names_head hf
    exact ⟨w, c, t, rfl, hw, by simp [starter, h1, h2]⟩
  induction h with
  | up _ _ ih => exact ih
  | bin _ _ _ _ _ ih _ => exact ext _ (ext _ (ext _ ih))
  | un ho hw _ _ =>
    refine ext _ ?_
    simp only [List.mem_cons, List.not_mem_nil, or_false] at ho
    rcases ho with rfl | rfl | rfl <;> exact ⟨_, _, _, rfl, hw, by decide⟩
  | int hw hd => exact dig hw hd
  | float hw hd _ => exact ext _ (dig hw hd)
  | var hw _ _ => exact ⟨_, _, _, rfl, hw, by decide⟩
  | group hw _ _ _ => exact ext _ (ext _ ⟨_, _, _, rfl, hw, by decide⟩)
  | fn1 hw hf => exact ext _ (ext _ (ext _ (nam hw hf)))
  | fn2 hw hf => exact ext _ (ext _ (ext _ (ext _ (ext _ (nam hw hf)))))
  | fn3 hw hf => exact ext _ (ext _ (ext _ (ext _ (ext _ (ext _ (ext _ (nam hw hf)))))))

theorem Writes.pos {k : Nat} {e : Node} {s : Text} (h : Writes Hv k e s) : 0 < s.length := by
  obtain ⟨w, c, t, rfl, _, _⟩ := h.head
  simp

/-- no operand begins here -/
def NoStart (s : Text) : Prop := ∀ c t, skip s = c :: t → starter c = false

theorem numF_none {s : Text} (h : ∀ c t, skip s = c :: t → isDigit c = false) : numF s = none := by
  unfold numF
  cases hs : skip s with
  | nil => rfl
  | cons c t => simp [h c t hs]

theorem numI_none {s : Text} (h : ∀ c t, skip s = c :: t → isDigit c = false) : numI s = none := by
  unfold numI
  cases hs : skip s with
  | nil => rfl
  | cons c t => simp [h c t hs]

theorem varAt_none {s : Text} (h : ∀ t, skip s ≠ '$' :: t) : varAt s = none := by
  cases hv : varAt s with
  | none => rfl
  | some x =>
    obtain ⟨w, k, d, hw, _, _, _, hs⟩ := varAt_some (t := x.1) (r := x.2) hv
    rw [List.append_assoc, List.cons_append] at hs
    exact absurd (by rw [hs]; exact skip_app hw rfl) (h _)

theorem fName_none {s : Text} (h : ∀ c t, skip s = c :: t → ¬ ('a' ≤ c ∧ c ≤ 'z')) : fName names s = none := by
  cases hv : fName names s with
  | none => rfl
  | some x =>
    obtain ⟨hf, hs, _⟩ := fName_some (f := x.1) (r := x.2) hv
    obtain ⟨c, t, hc, h1, h2⟩ := names_head hf
    rw [hc] at hs
    exact absurd ⟨h1, h2⟩ (h _ _ hs)

theorem hide_fail {c : Char} {t s : Text} (h : ∀ r, skip s ≠ c :: r) : hide (c :: t) s = .fail := by
  unfold hide
  rw [lit_none (fun r => h _)]

theorem primary_fail {n : Nat} {s : Text} (h : NoStart s) : primary (n + 2) s = .fail := by
  have h1 : ∀ c t, skip s = c :: t → isDigit c = false := fun c t hs => by
    have := h c t hs; simp only [starter, Bool.or_eq_false_iff] at this; exact this.1.1.1.1.1.1
  have h2 : ∀ t, skip s ≠ '$' :: t := fun t hs => absurd (h _ _ hs) (by decide)
  have h3 : ∀ c t, skip s = c :: t → ¬ ('a' ≤ c ∧ c ≤ 'z') := fun c t hs hc => by
    have := h c t hs; simp [starter, hc] at this
  have h4 : ∀ t, skip s ≠ '(' :: t := fun t hs => absurd (h _ _ hs) (by decide)
  unfold primary func
  rw [numF_none h1, numI_none h1, varAt_none h2, fName_none h3, hide_fail h4]
  rfl

theorem unary_fail {n : Nat} {s : Text} (h : NoStart s) : unary (n + 3) s = .fail := by
  unfold unary
  rw [primary_fail h, firstOf_none]
  · rfl
  · intro o ho r hs
    simp only [unops, List.mem_cons, List.not_mem_nil, or_false] at ho
    rcases ho with rfl | rfl | rfl <;> exact absurd (h _ _ hs) (by decide)

theorem level_fail {s : Text} (h : NoStart s) : ∀ (d n k : Nat), k + d = 11 → level (n + 4 + d) k s = .fail := by
  intro d
  induction d with
  | zero =>
    intro n k hk
    show level ((n + 3) + 1) k s = _
    unfold level
    rw [if_neg (by omega)]
    exact unary_fail h
  | succ d ih =>
    intro n k hk
    show level ((n + 4 + d) + 1) k s = _
    unfold level
    rw [if_pos (by omega), ih n (k + 1) (by omega)]
    rfl

theorem level_fail' {s : Text} (h : NoStart s) {n k : Nat} (hk : k ≤ 11) (hn : 15 ≤ n) : level n k s = .fail := by
  have := level_fail h (11 - k) (n - 4 - (11 - k)) k (by omega)
  rwa [show n - 4 - (11 - k) + 4 + (11 - k) = n by omega] at this

/-- what can follow an expression of level `k` -/
structure Follow (k : Nat) (rest : Text) : Prop where
  num : ∀ c t, rest = c :: t → isDigit c = false ∧ c ≠ '.'
  ops : ∀ j, k ≤ j → j < 11 → ∀ o r, o ∈ Hv.ops j → skip rest = o ++ r → NoStart r

theorem Follow.mono {k j : Nat} {rest : Text} (h : Follow k rest) (hj : k ≤ j) : Follow j rest :=
  ⟨h.num, fun i hi => h.ops i (Nat.le_trans hj hi)⟩

theorem blank_num {w : Text} (hw : Blank w) {c : Char} {r : Text} (hc : isDigit c = false ∧ c ≠ '.') :
    ∀ x t, w ++ c :: r = x :: t → isDigit x = false ∧ x ≠ '.' := by
  intro x t h
  cases w with
  | nil => cases h; exact hc
  | cons y w =>
    cases h
    rcases hw x (List.mem_cons_self ..) with rfl | rfl | rfl | rfl <;> decide

theorem ops_mem {j : Nat} {o : Text} (h : o ∈ Hv.ops j) : (j, o) ∈ [(0, ['|', '|']), (1, ['&', '&']), (2, ['|']), (3, ['^']), (4, ['&']),
    (5, ['=', '=']), (5, ['!', '=']), (6, ['<', '=']), (6, ['>', '=']), (7, ['<']), (7, ['>']), (8, ['<', '<']), (8, ['>', '>']),
    (9, ['+']), (9, ['-']), (10, ['*']), (10, ['/']), (10, ['%'])] := by
  by_cases hj : j < 11
  · interval_cases j <;> simpa [Hv] using h
  · have : Hv.ops j = [] := by
      simp only [Hv]
      rw [List.getD_eq_getElem?_getD, List.getElem?_eq_none (by simpa using hj)]
      rfl
    rw [this] at h
    exact absurd h (by simp)

theorem follow_sep {w : Text} (hw : Blank w) {c : Char} {r : Text} (hc : c = ')' ∨ c = '\\') : Follow 0 (w ++ c :: r) where
  num := blank_num hw (by rcases hc with rfl | rfl <;> decide)
  ops := by
    intro j _ _ o r' ho hs
    rw [skip_app hw (by rcases hc with rfl | rfl <;> rfl)] at hs
    have := ops_mem ho
    simp only [List.mem_cons, Prod.mk.injEq, List.not_mem_nil, or_false] at this
    rcases hc with rfl | rfl <;> rcases this with h | h | h | h | h | h | h | h | h | h | h | h | h | h | h | h | h | h <;>
      rw [h.2] at hs <;> simp at hs

theorem follow_end {w : Text} (hw : Blank w) : Follow 0 w where
  num := by
    intro c t h
    subst h
    rcases hw c (List.mem_cons_self ..) with rfl | rfl | rfl | rfl <;> decide
  ops := by
    intro j _ _ o r' ho hs
    rw [skip_blank hw] at hs
    have := ops_mem ho
    simp only [List.mem_cons, Prod.mk.injEq, List.not_mem_nil, or_false] at this
    rcases this with h | h | h | h | h | h | h | h | h | h | h | h | h | h | h | h | h | h <;>
      rw [h.2] at hs <;> simp at hs

/-- operators of different levels -/
theorem ops_clash {k j : Nat} {o o' : Text} (h : o ∈ Hv.ops k) (h' : o' ∈ Hv.ops j) (hkj : k < j) :
    (¬ o' <+: o ∧ ¬ o <+: o') ∨ (∃ y ∈ ['|', '&', '='], o = o' ++ [y]) ∨ ∃ y ∈ ['<', '>'], o' = o ++ [y] := by
  have key : ∀ p ∈ [(0, ['|', '|']), (1, ['&', '&']), (2, ['|']), (3, ['^']), (4, ['&']),
    (5, ['=', '=']), (5, ['!', '=']), (6, ['<', '=']), (6, ['>', '=']), (7, ['<']), (7, ['>']), (8, ['<', '<']), (8, ['>', '>']),
    (9, ['+']), (9, ['-']), (10, ['*']), (10, ['/']), (10, ['%'])], ∀ q ∈ [(0, ['|', '|']), (1, ['&', '&']), (2, ['|']), (3, ['^']), (4, ['&']),
    (5, ['=', '=']), (5, ['!', '=']), (6, ['<', '=']), (6, ['>', '=']), (7, ['<']), (7, ['>']), (8, ['<', '<']), (8, ['>', '>']),
    (9, ['+']), (9, ['-']), (10, ['*']), (10, ['/']), (10, ['%'])], p.1 < q.1 →
    (¬ q.2 <+: p.2 ∧ ¬ p.2 <+: q.2) ∨ (∃ y ∈ ['|', '&', '='], p.2 = q.2 ++ [y]) ∨ ∃ y ∈ ['<', '>'], q.2 = p.2 ++ [y] := by
    decide +kernel
  exact key _ (ops_mem h) _ (ops_mem h') hkj

theorem ops_nows {k : Nat} {o : Text} (h : o ∈ Hv.ops k) : ∃ c t, o = c :: t ∧ isWs c = false ∧ isDigit c = false ∧ c ≠ '.' := by
  have := ops_mem h
  simp only [List.mem_cons, Prod.mk.injEq, List.not_mem_nil, or_false] at this
  rcases this with h | h | h | h | h | h | h | h | h | h | h | h | h | h | h | h | h | h <;>
    rw [h.2] <;> exact ⟨_, _, rfl, by decide, by decide, by decide⟩

/-- the first character of an operand -/
theorem Writes.first {k : Nat} {e : Node} {s : Text} (h : Writes Hv k e s) : ∃ x u, s = x :: u ∧ x ≠ '<' ∧ x ≠ '>' := by
  obtain ⟨w, c, t, rfl, hw, hc⟩ := h.head
  cases w with
  | nil => exact ⟨c, t, rfl, by rintro rfl; exact absurd hc (by decide), by rintro rfl; exact absurd hc (by decide)⟩
  | cons y w =>
    refine ⟨y, w ++ c :: t, rfl, ?_⟩
    rcases hw y (List.mem_cons_self ..) with rfl | rfl | rfl | rfl <;> decide

theorem skip_op {k : Nat} {w o t : Text} (hw : Blank w) (ho : o ∈ Hv.ops k) : skip (w ++ o ++ t) = o ++ t := by
  obtain ⟨c, o', rfl, h1, _⟩ := ops_nows ho
  rw [List.append_assoc, List.cons_append, skip_app hw h1]

theorem follow_op {k : Nat} {w o t rest : Text} {b : Node} (hw : Blank w) (ho : o ∈ Hv.ops k) (hb : Writes Hv (k + 1) b t) :
    Follow (k + 1) (w ++ o ++ t ++ rest) where
  num := by
    obtain ⟨c, o', rfl, _, h1⟩ := ops_nows ho
    intro x u h
    exact blank_num hw h1 x u (r := o' ++ t ++ rest) (by simpa using h)
  ops := by
    intro j hkj hj o' r ho' hs
    rw [List.append_assoc, skip_op hw ho] at hs
    obtain ⟨x, u, rfl, hx1, hx2⟩ := hb.first
    rcases ops_clash ho ho' hkj with ⟨h1, h2⟩ | ⟨y, hy, rfl⟩ | ⟨y, hy, rfl⟩
    · rcases List.prefix_or_prefix_of_prefix (l₁ := o) (l₂ := o') (l₃ := o' ++ r) ⟨_, hs⟩ ⟨_, rfl⟩ with h | h
      · exact absurd h h2
      · exact absurd h h1
    · rw [List.append_assoc, List.append_cancel_left_eq] at hs
      rw [← hs]
      intro c v hc
      simp only [List.mem_cons, List.not_mem_nil, or_false] at hy
      rw [List.singleton_append, ← List.nil_append (y :: _), skip_app (by simp [Blank]) (by rcases hy with rfl | rfl | rfl <;> rfl)] at hc
      cases hc
      rcases hy with rfl | rfl | rfl <;> decide
    · rw [List.append_assoc, List.append_cancel_left_eq] at hs
      simp only [List.cons_append, List.nil_append, List.cons.injEq] at hs
      simp only [List.mem_cons, List.not_mem_nil, or_false] at hy
      rcases hy with rfl | rfl
      · exact absurd hs.1 hx1
      · exact absurd hs.1 hx2

theorem firstOf_hit {k : Nat} {w o t : Text} (hk : k < 11) (hw : Blank w) (ho : o ∈ Hv.ops k) : firstOf (ops k) (w ++ o ++ t) = some (o, t) := by
  have hs := skip_op (t := t) hw ho
  rw [ops_eq hk]
  have : ∀ os : List Text, o ∈ os → (∀ x ∈ os, x.length = o.length) → firstOf os (w ++ o ++ t) = some (o, t) := by
    intro os
    induction os with
    | nil => intro h _; exact absurd h (by simp)
    | cons x os ih =>
      intro hm hl
      unfold firstOf
      cases hx : lit x (w ++ o ++ t) with
      | some r =>
        have h1 := lit_iff.mp hx
        rw [hs] at h1
        obtain ⟨h2, h3⟩ := List.append_inj h1 (hl x (List.mem_cons_self ..)).symm
        rw [h2, h3]
      | none =>
        rcases List.mem_cons.mp hm with rfl | hm
        · rw [lit_iff.mpr hs] at hx; exact absurd hx (by simp)
        · exact ih hm (fun y hy => hl y (List.mem_cons_of_mem _ hy))
  refine this _ ho ?_
  have : ∀ k, k < 11 → ∀ x ∈ Hv.ops k, ∀ y ∈ Hv.ops k, x.length = y.length := by decide +kernel
  exact fun x hx => this k hk x hx o ho

/-- the head of a chain and its tail -/
theorem Writes.split {k : Nat} {e : Node} {s : Text} (h : Writes Hv k e s) (hk : k < 11) :
    ∃ a xs s0 p, Writes Hv (k + 1) a s0 ∧ Tail k xs p ∧ e = chain a xs ∧ s = s0 ++ p := by
  have snoc : ∀ {xs p}, Tail k xs p → ∀ {o w t b}, o ∈ Hv.ops k → Blank w → Writes Hv (k + 1) b t →
      Tail k (xs ++ [(o, b)]) (p ++ w ++ o ++ t) := by
    intro xs p h
    induction h with
    | nil => intro o w t b ho hw hb; simpa using Tail.cons ho hw hb .nil
    | cons ho hw hb _ ih => intro o w t b ho' hw' hb'; simpa [List.append_assoc] using Tail.cons ho hw hb (ih ho' hw' hb')
  induction h with
  | @up k e s _ h => exact ⟨e, [], s, [], h, .nil, rfl, by simp⟩
  | @bin k o a b s w t _ ho _ hw hb ih _ =>
    obtain ⟨a', xs, s0, p, h1, h2, h3, h4⟩ := ih hk snoc
    exact ⟨a', xs ++ [(o, b)], s0, p ++ w ++ o ++ t, h1, snoc h2 ho hw hb, by simp [chain, h3], by simp [h4]⟩
  | un => exact absurd hk (by decide)
  | _ => exact absurd hk (by decide)

theorem Writes.inv11 {e : Node} {s : Text} (h : Writes Hv 11 e s) :
    Writes Hv 12 e s ∨ ∃ o a w t, e = .un o a ∧ s = w ++ o ++ t ∧ o ∈ unops ∧ Blank w ∧ Writes Hv 11 a t := by
  generalize hk : 11 = k at h
  cases h with
  | up _ h => subst hk; exact .inl h
  | bin h => subst hk; exact absurd h (by decide)
  | un ho hw h => exact .inr ⟨_, _, _, _, rfl, rfl, ho, hw, h⟩
  | _ => exact absurd hk (by decide)

theorem digits_split {d rest : Text} (hd : Digits d) (hr : ∀ c t, rest = c :: t → isDigit c = false) :
    (d ++ rest).dropWhile isDigit = rest ∧ (d ++ rest).takeWhile isDigit = d :=
  dropWhile_app (fun c h => isDigit_iff.mpr (hd.2 c h)) hr

theorem digits_head {d : Text} (hd : Digits d) : ∃ c t, d = c :: t ∧ isDigit c = true ∧ isWs c = false := by
  cases d with
  | nil => exact absurd rfl hd.1
  | cons c t =>
    have h := isDigit_iff.mpr (hd.2 c (List.mem_cons_self ..))
    exact ⟨c, t, rfl, h, starter_ws (digit_starter h)⟩

theorem skip_digits {w d rest : Text} (hw : Blank w) (hd : Digits d) : skip (w ++ d ++ rest) = d ++ rest := by
  obtain ⟨c, t, rfl, _, h⟩ := digits_head hd
  rw [List.append_assoc, List.cons_append, skip_app hw h]

theorem num_int {w d rest : Text} (hw : Blank w) (hd : Digits d) (hr : ∀ c t, rest = c :: t → isDigit c = false ∧ c ≠ '.') :
    numF (w ++ d ++ rest) = none ∧ numI (w ++ d ++ rest) = some (d, rest) := by
  obtain ⟨h1, h2⟩ := digits_split hd (fun c t h => (hr c t h).1)
  unfold numF numI
  rw [skip_digits hw hd, h1, h2]
  obtain ⟨c, t, rfl, _, _⟩ := digits_head hd
  refine ⟨?_, rfl⟩
  cases rest with
  | nil => rfl
  | cons x r =>
    have := (hr x r rfl).2
    split
    · simp_all
    · rfl

theorem num_float {w d f rest : Text} (hw : Blank w) (hd : Digits d) (hf : Digits f)
    (hr : ∀ c t, rest = c :: t → isDigit c = false ∧ c ≠ '.') :
    numF (w ++ d ++ '.' :: f ++ rest) = some (d ++ '.' :: f, rest) := by
  obtain ⟨h1, h2⟩ := digits_split hd (rest := '.' :: f ++ rest) (fun c t h => by cases h; decide)
  obtain ⟨h3, h4⟩ := digits_split hf (fun c t h => (hr c t h).1)
  unfold numF
  rw [List.append_assoc (w ++ d), skip_digits hw hd, h1, h2]
  obtain ⟨c, t, rfl, _, _⟩ := digits_head hd
  obtain ⟨c', t', rfl, _, _⟩ := digits_head hf
  simp only [List.cons_append] at h3 h4 ⊢
  simp only [h3, h4]

theorem var_hit {w d rest : Text} {k : Char} (hw : Blank w) (hk : k ∈ ['f', 'i', 's', 'v']) (hd : Digits d)
    (hr : ∀ c t, rest = c :: t → isDigit c = false ∧ c ≠ '.') :
    varAt (w ++ '$' :: k :: d ++ rest) = some ('$' :: k :: d, rest) := by
  obtain ⟨h3, h4⟩ := digits_split hd (fun c t h => (hr c t h).1)
  have hk' : isKind k = true := by simpa [isKind, or_assoc] using hk
  unfold varAt
  rw [List.append_assoc, List.cons_append, List.cons_append, skip_app hw rfl]
  simp only [h3, h4, hk']
  obtain ⟨c, t, rfl, _, _⟩ := digits_head hd
  rfl

theorem names_open {f : Text} (h : f ∈ names) : ∀ c ∈ f, (c != '(') = true := by
  have : ∀ f ∈ names, ∀ c ∈ f, (c != '(') = true := by decide +kernel
  exact this f h

theorem fName_hit {s f r : Text} (hf : f ∈ names) (hs : skip s = f ++ '(' :: r) : fName names s = some (f, '(' :: r) := by
  have : ∀ ns : List Text, f ∈ ns → (∀ x ∈ ns, x ∈ names) → fName ns s = some (f, '(' :: r) := by
    intro ns
    induction ns with
    | nil => intro h _; exact absurd h (by simp)
    | cons x ns ih =>
      intro hm hl
      unfold fName
      split
      · rename_i hp
        obtain ⟨u, hu⟩ := List.isPrefixOf_iff_prefix.mp hp
        rw [hs, List.append_assoc, List.singleton_append] at hu
        have h1 := (dropWhile_app (r := '(' :: u) (names_open (hl x (List.mem_cons_self ..))) (by rintro _ _ ⟨⟩; rfl)).2
        have h2 := (dropWhile_app (r := '(' :: r) (names_open hf) (by rintro _ _ ⟨⟩; rfl)).2
        rw [hu, h2] at h1
        subst h1
        rw [hs]
        simp
      · rename_i hp
        rcases List.mem_cons.mp hm with rfl | hm
        · exact absurd (List.isPrefixOf_iff_prefix.mpr ⟨r, by rw [hs]; simp⟩) hp
        · exact ih hm (fun y hy => hl y (List.mem_cons_of_mem _ hy))
  exact this names hf (fun _ h => h)

theorem hide_hit {c : Char} {t w r : Text} (hw : Blank w) (hc : isWs c = false) : hide (c :: t) (w ++ c :: t ++ r) = .ok () r := by
  unfold hide
  have : lit (c :: t) (w ++ c :: t ++ r) = some r := lit_iff.mpr (by rw [List.append_assoc, List.cons_append, skip_app hw hc])
  rw [this]

theorem skip_name {w f r : Text} (hw : Blank w) (hf : f ∈ names) : skip (w ++ f ++ r) = f ++ r := by
  obtain ⟨c, t, rfl, h1, h2⟩ := names_head hf
  rw [List.append_assoc, List.cons_append, skip_app hw (starter_ws (by simp [starter, h1, h2]))]

/-- inside a function or parentheses -/
def Inner (l : Nat) : Prop := ∀ e t rest n, t.length < l → Writes Hv 0 e t → Follow 0 rest → 20 * t.length + 60 ≤ n →
  level n 0 (t ++ rest) = .ok e rest

theorem func_ok {s : Text} (ih : Inner s.length) {e : Node} {rest : Text} {n : Nat} (hn : 20 * s.length + 40 ≤ n)
    (h : Writes Hv 12 e s) :
    (∃ w f r, Blank w ∧ f ∈ names ∧ s = w ++ f ++ '(' :: r) → func n (s ++ rest) = .ok e rest := by
  rintro ⟨w0, f0, r0, hw0, hf0, hs0⟩
  have hsk : skip s = f0 ++ '(' :: r0 := by rw [hs0]; exact skip_name hw0 hf0
  obtain ⟨c0, t0, hc0, hc1, hc2⟩ := names_head hf0
  obtain ⟨m, rfl⟩ : ∃ m, n = m + 1 := ⟨n - 1, by omega⟩
  generalize hk : 12 = k at h
  have nd : ∀ c, isDigit c = true → ¬ ('a' ≤ c ∧ c ≤ 'z') := by
    intro c h1 ⟨h2, _⟩
    have := (isDigit_iff.mp h1).2
    exact absurd (Char.le_trans h2 this) (by decide)
  have bad : ∀ c t, skip s = c :: t → 'a' ≤ c ∧ c ≤ 'z' := by
    intro c t h
    rw [hsk, hc0] at h
    cases h
    exact ⟨hc1, hc2⟩
  cases h with
  | up h => subst hk; exact absurd h (by decide)
  | bin h => subst hk; exact absurd h (by decide)
  | un => exact absurd hk (by decide)
  | @int w d hw hd =>
    obtain ⟨c, t, rfl, h1, h2⟩ := digits_head hd
    exact absurd (bad c t (skip_app hw h2)) (nd c h1)
  | @float w d f hw hd _ =>
    obtain ⟨c, t, rfl, h1, h2⟩ := digits_head hd
    exact absurd (bad c _ (by rw [List.append_assoc]; exact skip_app hw h2)) (nd c h1)
  | var hw => exact absurd (bad _ _ (skip_app hw rfl)) (by decide)
  | group hw => exact absurd (bad '(' _ (by rw [List.append_assoc, List.append_assoc]; exact skip_app hw rfl)) (by decide)
  | @fn1 w f a t w' hw hf ha hw' =>
    have h1 : fName names (w ++ f ++ '(' :: t ++ w' ++ [')'] ++ rest) = some (f, '(' :: (t ++ (w' ++ ')' :: rest))) := by
      apply fName_hit hf
      simp only [List.append_assoc, List.cons_append, List.nil_append]
      rw [← List.append_assoc, skip_name hw hf]
    have h2 := hide_hit (c := '(') (t := []) (w := []) (r := t ++ (w' ++ ')' :: rest)) (by simp [Blank]) rfl
    have h3 := ih a t (w' ++ ')' :: rest) m (by simp; omega) ha (follow_sep hw' (.inl rfl)) (by simp at hn; omega)
    have h4 := hide_hit (c := ')') (t := []) (r := rest) hw' rfl
    simp only [List.append_assoc, List.cons_append, List.nil_append] at h2 h4
    unfold func
    simp only [h1, term, Res.bind, h2, h3, h4, Res.orElse]
  | @fn2 w f a t w' b u w'' hw hf ha hw' hb hw'' =>
    have h1 : fName names (w ++ f ++ '(' :: t ++ w' ++ '\\' :: ',' :: u ++ w'' ++ [')'] ++ rest) =
        some (f, '(' :: (t ++ (w' ++ '\\' :: ',' :: (u ++ (w'' ++ ')' :: rest))))) := by
      apply fName_hit hf
      simp only [List.append_assoc, List.cons_append, List.nil_append]
      rw [← List.append_assoc, skip_name hw hf]
    have h2 := hide_hit (c := '(') (t := []) (w := []) (r := t ++ (w' ++ '\\' :: ',' :: (u ++ (w'' ++ ')' :: rest)))) (by simp [Blank]) rfl
    have h3 := ih a t (w' ++ '\\' :: ',' :: (u ++ (w'' ++ ')' :: rest))) m (by simp; omega) ha (follow_sep hw' (.inr rfl))
      (by simp at hn; omega)
    have h4 : hide [')'] (w' ++ '\\' :: ',' :: (u ++ (w'' ++ ')' :: rest))) = .fail :=
      hide_fail (fun r h => by rw [skip_app hw' rfl] at h; simp at h)
    have h5 := hide_hit (c := '\\') (t := [',']) (r := u ++ (w'' ++ ')' :: rest)) hw' rfl
    have h6 := ih b u (w'' ++ ')' :: rest) m (by simp; omega) hb (follow_sep hw'' (.inl rfl)) (by simp at hn; omega)
    have h7 := hide_hit (c := ')') (t := []) (r := rest) hw'' rfl
    simp only [List.append_assoc, List.cons_append, List.nil_append] at h2 h5 h7
    unfold func
    simp only [h1, term, Res.bind, h2, h3, h4, h5, h6, h7, Res.orElse]
  | @fn3 w f a t w' b u w'' c v w3 hw hf ha hw' hb hw'' hc hw3 =>
    have h1 : fName names (w ++ f ++ '(' :: t ++ w' ++ '\\' :: ',' :: u ++ w'' ++ '\\' :: ',' :: v ++ w3 ++ [')'] ++ rest) =
        some (f, '(' :: (t ++ (w' ++ '\\' :: ',' :: (u ++ (w'' ++ '\\' :: ',' :: (v ++ (w3 ++ ')' :: rest))))))) := by
      apply fName_hit hf
      simp only [List.append_assoc, List.cons_append, List.nil_append]
      rw [← List.append_assoc, skip_name hw hf]
    have h2 := hide_hit (c := '(') (t := []) (w := [])
      (r := t ++ (w' ++ '\\' :: ',' :: (u ++ (w'' ++ '\\' :: ',' :: (v ++ (w3 ++ ')' :: rest)))))) (by simp [Blank]) rfl
    have h3 := ih a t (w' ++ '\\' :: ',' :: (u ++ (w'' ++ '\\' :: ',' :: (v ++ (w3 ++ ')' :: rest))))) m (by simp; omega) ha
      (follow_sep hw' (.inr rfl)) (by simp at hn; omega)
    have h4 : hide [')'] (w' ++ '\\' :: ',' :: (u ++ (w'' ++ '\\' :: ',' :: (v ++ (w3 ++ ')' :: rest))))) = .fail :=
      hide_fail (fun r h => by rw [skip_app hw' rfl] at h; simp at h)
    have h5 := hide_hit (c := '\\') (t := [',']) (r := u ++ (w'' ++ '\\' :: ',' :: (v ++ (w3 ++ ')' :: rest)))) hw' rfl
    have h6 := ih b u (w'' ++ '\\' :: ',' :: (v ++ (w3 ++ ')' :: rest))) m (by simp; omega) hb (follow_sep hw'' (.inr rfl))
      (by simp at hn; omega)
    have h7 : hide [')'] (w'' ++ '\\' :: ',' :: (v ++ (w3 ++ ')' :: rest))) = .fail :=
      hide_fail (fun r h => by rw [skip_app hw'' rfl] at h; simp at h)
    have h8 := hide_hit (c := '\\') (t := [',']) (r := v ++ (w3 ++ ')' :: rest)) hw'' rfl
    have h9 := ih c v (w3 ++ ')' :: rest) m (by simp; omega) hc (follow_sep hw3 (.inl rfl)) (by simp at hn; omega)
    have h10 := hide_hit (c := ')') (t := []) (r := rest) hw3 rfl
    simp only [List.append_assoc, List.cons_append, List.nil_append] at h2 h5 h8 h10
    unfold func
    simp only [h1, term, Res.bind, h2, h3, h4, h5, h6, h7, h8, h9, h10, Res.orElse]

theorem primary_ok {s : Text} (ih : Inner s.length) {e : Node} {rest : Text} {n : Nat} (hn : 20 * s.length + 42 ≤ n)
    (h : Writes Hv 12 e s) (hr : ∀ c t, rest = c :: t → isDigit c = false ∧ c ≠ '.') : primary n (s ++ rest) = .ok e rest := by
  obtain ⟨m, rfl⟩ : ∃ m, n = m + 1 := ⟨n - 1, by omega⟩
  have nd : ∀ c, ('a' ≤ c ∧ c ≤ 'z') → isDigit c = false := by
    intro c ⟨h2, _⟩
    cases hd : isDigit c with
    | false => rfl
    | true => exact absurd (Char.le_trans h2 (isDigit_iff.mp hd).2) (by decide)
  have viaFunc : (∃ w f r, Blank w ∧ f ∈ names ∧ s = w ++ f ++ '(' :: r) → primary (m + 1) (s ++ rest) = .ok e rest := by
    intro hx
    have hfun := func_ok ih (rest := rest) (n := m) (by omega) h hx
    obtain ⟨w, f, r, hw, hf, hs⟩ := hx
    obtain ⟨c, t, hc, h1, h2⟩ := names_head hf
    have hsk : skip (s ++ rest) = c :: (t ++ '(' :: r ++ rest) := by
      rw [hs, List.append_assoc, skip_name hw hf, hc]; simp
    unfold primary
    have e1 : ∀ c t, skip (s ++ rest) = c :: t → isDigit c = false := by
      intro c' t' h'; rw [hsk] at h'; cases h'; exact nd _ ⟨h1, h2⟩
    rw [numF_none e1, numI_none e1, varAt_none, hfun]
    · rfl
    · intro t' h'; rw [hsk] at h'; cases h'; exact absurd h1 (by decide)
  generalize hg : 12 = k at h
  cases h with
  | up h => subst hg; exact absurd h (by decide)
  | bin h => subst hg; exact absurd h (by decide)
  | un => exact absurd hg (by decide)
  | @int w d hw hd =>
    obtain ⟨h1, h2⟩ := num_int hw hd hr
    unfold primary
    simp only [h1, h2, term, Res.bind, Res.orElse]
  | @float w d f hw hd hf =>
    unfold primary
    simp only [num_float hw hd hf hr, term, Res.bind, Res.orElse]
  | @var w k d hw hk hd =>
    have hsk : skip (w ++ '$' :: k :: d ++ rest) = '$' :: k :: (d ++ rest) := by
      rw [List.append_assoc, List.cons_append, skip_app hw rfl]; rfl
    have e1 : ∀ c t, skip (w ++ '$' :: k :: d ++ rest) = c :: t → isDigit c = false := by
      intro c' t' h'; rw [hsk] at h'; cases h'; rfl
    unfold primary
    simp only [numF_none e1, numI_none e1, var_hit hw hk hd hr, term, Res.bind, Res.orElse]
  | @group w e t w' hw he hw' =>
    have hsk : skip (w ++ '(' :: t ++ w' ++ [')'] ++ rest) = '(' :: (t ++ (w' ++ ')' :: rest)) := by
      simp only [List.append_assoc, List.cons_append, List.nil_append]
      exact skip_app hw rfl
    have e1 : ∀ c t', skip (w ++ '(' :: t ++ w' ++ [')'] ++ rest) = c :: t' → isDigit c = false := by
      intro c' t' h'; rw [hsk] at h'; cases h'; rfl
    have e2 : varAt (w ++ '(' :: t ++ w' ++ [')'] ++ rest) = none := varAt_none fun t' h' => by rw [hsk] at h'; simp at h'
    have e3 : fName names (w ++ '(' :: t ++ w' ++ [')'] ++ rest) = none :=
      fName_none fun c' t' h' => by rw [hsk] at h'; cases h'; decide
    have e4 : func m (w ++ '(' :: t ++ w' ++ [')'] ++ rest) = .fail := by
      obtain ⟨m', rfl⟩ : ∃ m', m = m' + 1 := ⟨m - 1, by omega⟩
      unfold func
      simp only [e3, term, Res.bind, Res.orElse]
    have h2 : hide ['('] (w ++ '(' :: t ++ w' ++ [')'] ++ rest) = .ok () (t ++ (w' ++ ')' :: rest)) := by
      have := hide_hit (c := '(') (t := []) (r := t ++ (w' ++ ')' :: rest)) hw rfl
      simpa using this
    have h3 := ih e t (w' ++ ')' :: rest) m (by simp; omega) he (follow_sep hw' (.inl rfl)) (by simp at hn; omega)
    have h4 := hide_hit (c := ')') (t := []) (r := rest) hw' rfl
    simp only [List.append_assoc, List.cons_append, List.nil_append] at h4
    unfold primary
    simp only [numF_none e1, numI_none e1, e2, e4, h2, h3, h4, term, Res.bind, Res.orElse]
  | @fn1 w f a t w' hw hf => exact viaFunc ⟨w, f, t ++ w' ++ [')'], hw, hf, by simp⟩
  | @fn2 w f a t w' b u w'' hw hf => exact viaFunc ⟨w, f, t ++ w' ++ '\\' :: ',' :: u ++ w'' ++ [')'], hw, hf, by simp⟩
  | @fn3 w f a t w' b u w'' c v w3 hw hf =>
    exact viaFunc ⟨w, f, t ++ w' ++ '\\' :: ',' :: u ++ w'' ++ '\\' :: ',' :: v ++ w3 ++ [')'], hw, hf, by simp⟩

/-- a primary does not begin with a unary operator -/
theorem Writes.noUn {e : Node} {s : Text} (h : Writes Hv 12 e s) (rest : Text) : firstOf unops (s ++ rest) = none := by
  have key : ∃ c t, skip (s ++ rest) = c :: t ∧ c ≠ '-' ∧ c ≠ '~' ∧ c ≠ '!' := by
    have dg : ∀ c, isDigit c = true → c ≠ '-' ∧ c ≠ '~' ∧ c ≠ '!' := by
      intro c h
      refine ⟨?_, ?_, ?_⟩ <;> rintro rfl <;> exact absurd h (by decide)
    have az : ∀ c, ('a' ≤ c ∧ c ≤ 'z') → c ≠ '-' ∧ c ≠ '~' ∧ c ≠ '!' := by
      intro c h
      refine ⟨?_, ?_, ?_⟩ <;> rintro rfl <;> exact absurd h (by decide)
    have nam : ∀ {w f r : Text}, Blank w → f ∈ names → ∃ c t, skip (w ++ f ++ r) = c :: t ∧ c ≠ '-' ∧ c ≠ '~' ∧ c ≠ '!' := by
      intro w f r hw hf
      obtain ⟨c, t, hc, h1⟩ := names_head hf
      exact ⟨c, t ++ r, by rw [skip_name hw hf, hc]; rfl, az c h1⟩
    generalize hg : 12 = k at h
    cases h with
    | up h => subst hg; exact absurd h (by decide)
    | bin h => subst hg; exact absurd h (by decide)
    | un => exact absurd hg (by decide)
    | @int w d hw hd =>
      obtain ⟨c, t, rfl, h1, h2⟩ := digits_head hd
      exact ⟨c, _, skip_digits hw hd, dg c h1⟩
    | @float w d f hw hd =>
      obtain ⟨c, t, rfl, h1, h2⟩ := digits_head hd
      exact ⟨c, _, by rw [List.append_assoc (w ++ c :: t)]; exact skip_digits hw hd, dg c h1⟩
    | @var w k d hw => exact ⟨'$', _, by rw [List.append_assoc]; exact skip_app hw rfl, by decide⟩
    | @group w e t w' hw =>
      exact ⟨'(', _, by simp only [List.append_assoc, List.cons_append]; exact skip_app hw rfl, by decide⟩
    | @fn1 w f a t w' hw hf => simp only [List.append_assoc]; rw [← List.append_assoc]; exact nam hw hf
    | @fn2 w f a t w' b u w'' hw hf => simp only [List.append_assoc]; rw [← List.append_assoc]; exact nam hw hf
    | @fn3 w f a t w' b u w'' c v w3 hw hf => simp only [List.append_assoc]; rw [← List.append_assoc]; exact nam hw hf
  obtain ⟨c, t, h1, h2, h3, h4⟩ := key
  apply firstOf_none
  intro o ho r hs
  rw [h1] at hs
  simp only [unops, List.mem_cons, List.not_mem_nil, or_false] at ho
  rcases ho with rfl | rfl | rfl <;> cases hs <;> contradiction

theorem firstOf_unops {w o t : Text} (hw : Blank w) (ho : o ∈ unops) : firstOf unops (w ++ o ++ t) = some (o, t) := by
  simp only [unops, List.mem_cons, List.not_mem_nil, or_false] at ho
  rcases ho with rfl | rfl | rfl <;>
    simp [firstOf, unops, lit, skip_app hw (show isWs '-' = false from rfl), skip_app hw (show isWs '~' = false from rfl),
      skip_app hw (show isWs '!' = false from rfl)]

theorem many_stop {k : Nat} (hk : k < 11) {rest : Text} (hf : Follow k rest) {n : Nat} (hn : 20 ≤ n) : many n k rest = .ok [] rest := by
  obtain ⟨m, rfl⟩ : ∃ m, n = m + 1 := ⟨n - 1, by omega⟩
  unfold many
  cases h : firstOf (ops k) rest with
  | none => simp only [term, Res.bind, Res.orElse]
  | some x =>
    obtain ⟨o, r⟩ := x
    obtain ⟨ho, hs⟩ := firstOf_some h
    have := level_fail' (hf.ops k (Nat.le_refl _) hk o r (ops_eq hk ▸ ho) hs) (n := m) (k := k + 1) (by omega) (by omega)
    simp only [term, Res.bind, this, Res.orElse]

theorem complete (l : Nat) : ∀ k ≤ 11, ∀ e s rest n, s.length ≤ l → Writes Hv k e s → Follow k rest → 20 * s.length + 60 ≤ n + k →
    level n k (s ++ rest) = .ok e rest := by
  induction l with
  | zero => intro k _ e s rest n hl h; exact absurd h.pos (by omega)
  | succ l ih =>
    -- unary
    have hu : ∀ e s rest n, s.length ≤ l + 1 → Writes Hv 11 e s → Follow 11 rest → 20 * s.length + 45 ≤ n →
        unary n (s ++ rest) = .ok e rest := by
      intro e s rest n hl h hf hn
      obtain ⟨m, rfl⟩ : ∃ m, n = m + 1 := ⟨n - 1, by omega⟩
      rcases h.inv11 with h | ⟨o, a, w, t, rfl, rfl, ho, hw, ha⟩
      · have inner : Inner s.length := fun e t rest n h1 h2 h3 h4 => ih 0 (by omega) e t rest n (by omega) h2 h3 (by omega)
        have := primary_ok inner (n := m) (by omega) h hf.num
        unfold unary
        rw [h.noUn rest, this]
        rfl
      · have hlo : 1 ≤ o.length := by
          simp only [unops, List.mem_cons, List.not_mem_nil, or_false] at ho
          rcases ho with rfl | rfl | rfl <;> simp
        simp only [List.length_append] at hl hn
        have h1 := ih 11 (by omega) a t rest (m + 1) (by omega) ha hf (by omega)
        have h2 : unary m (t ++ rest) = .ok a rest := by
          unfold level at h1
          rwa [if_neg (by omega)] at h1
        unfold unary
        rw [List.append_assoc, firstOf_unops hw ho]
        simp only [term, Res.bind, h2, Res.orElse]
    -- the levels above it
    have hd : ∀ d k, k + d = 11 → ∀ e s rest n, s.length ≤ l + 1 → Writes Hv k e s → Follow k rest → 20 * s.length + 60 ≤ n + k →
        level n k (s ++ rest) = .ok e rest := by
      intro d
      induction d with
      | zero =>
        intro k hk e s rest n hl h hf hn
        obtain rfl : k = 11 := by omega
        obtain ⟨m, rfl⟩ : ∃ m, n = m + 1 := ⟨n - 1, by omega⟩
        unfold level
        rw [if_neg (by omega)]
        exact hu e s rest m hl h hf (by omega)
      | succ d ihd =>
        intro k hk e s rest n hl h hf hn
        obtain ⟨m, rfl⟩ : ∃ m, n = m + 1 := ⟨n - 1, by omega⟩
        obtain ⟨a, xs, s0, p, ha, ht, rfl, rfl⟩ := h.split (by omega)
        -- the tail
        have hm : ∀ {xs p}, Tail k xs p → p.length ≤ l → ∀ n, 20 * p.length + 42 ≤ n → many n k (p ++ rest) = .ok xs rest := by
          intro xs p ht
          induction ht with
          | nil => intro _ n hn; exact many_stop (by omega) hf (by omega)
          | @cons o b w t xs p ho hw hb ht iht =>
            intro hpl n hn
            obtain ⟨q, rfl⟩ : ∃ q, n = q + 1 := ⟨n - 1, by omega⟩
            have hlo : 1 ≤ o.length := by obtain ⟨c, t, rfl, _⟩ := ops_nows ho; simp
            simp only [List.length_append] at hpl hn
            have hfol : Follow (k + 1) (p ++ rest) := by
              cases ht with
              | nil => exact hf.mono (by omega)
              | cons ho' hw' hb' _ =>
                rw [List.append_assoc]
                exact follow_op hw' ho' hb'
            have h1 := ih (k + 1) (by omega) b t (p ++ rest) q (by omega) hb hfol (by omega)
            have h2 := iht (by omega) q (by omega)
            unfold many
            rw [List.append_assoc, List.append_assoc, firstOf_hit (by omega) hw ho]
            simp only [term, Res.bind, h1, h2, Res.orElse]
        have hpos := ha.pos
        simp only [List.length_append] at hl hn
        have hfol : Follow (k + 1) (p ++ rest) := by
          cases ht with
          | nil => exact hf.mono (by omega)
          | cons ho' hw' hb' _ =>
            rw [List.append_assoc]
            exact follow_op hw' ho' hb'
        have h1 := ihd (k + 1) (by omega) a s0 (p ++ rest) m (by omega) ha hfol (by omega)
        have h2 := hm ht (by omega) m (by omega)
        unfold level
        rw [if_pos (by omega), List.append_assoc]
        simp only [h1, Res.bind, h2]
    intro k hk
    exact hd (11 - k) k (by omega)

/-! ## Termination -/

theorem Res.bind_late {α β : Type} {x : Res α} {f : α → Text → Res β} (hx : x ≠ .late) (hf : ∀ a r, x = .ok a r → f a r ≠ .late) :
    x.bind f ≠ .late := by
  cases x with
  | ok a r => exact hf a r rfl
  | fail => simp [Res.bind]
  | late => exact absurd rfl hx

theorem Res.orElse_late {α : Type} {x y : Res α} (hx : x ≠ .late) (hy : y ≠ .late) : x.orElse y ≠ .late := by
  cases x with
  | ok a r => simp [Res.orElse]
  | fail => exact hy
  | late => exact absurd rfl hx

theorem term_late {α : Type} (x : Option (α × Text)) : term x ≠ .late := by
  cases x <;> simp [term]

theorem hide_late (t s : Text) : hide t s ≠ .late := by
  unfold hide; split <;> simp

theorem skip_len (s : Text) : (skip s).length ≤ s.length := by
  obtain ⟨w, _, h⟩ := skip_spec s
  have := congrArg List.length h
  simp only [List.length_append] at this
  omega

theorem firstOf_len {k : Nat} (hk : k < 11) {s o r : Text} (h : term (firstOf (ops k) s) = .ok o r) : r.length < s.length := by
  obtain ⟨ho, hs⟩ := firstOf_some (term_ok h)
  obtain ⟨c, t, rfl, _⟩ := ops_nows (ops_eq hk ▸ ho)
  have := skip_len s
  rw [hs] at this
  simp at this
  omega

theorem unops_len {s o r : Text} (h : term (firstOf unops s) = .ok o r) : r.length < s.length := by
  obtain ⟨ho, hs⟩ := firstOf_some (term_ok h)
  have := skip_len s
  rw [hs] at this
  simp only [unops, List.mem_cons, List.not_mem_nil, or_false] at ho
  rcases ho with rfl | rfl | rfl <;> simp at this <;> omega

theorem hide_len {c : Char} {t s r : Text} {u : Unit} (h : hide (c :: t) s = .ok u r) : r.length < s.length := by
  have := skip_len s
  rw [hide_ok h] at this
  simp at this
  omega

theorem fName_len {s f r : Text} (h : term (fName names s) = .ok f r) : r.length < s.length := by
  obtain ⟨hf, hs, _⟩ := fName_some (term_ok h)
  obtain ⟨c, t, rfl, _⟩ := names_head hf
  have := skip_len s
  rw [hs] at this
  simp at this
  omega

theorem level_len {n k : Nat} {s r : Text} {e : Node} (hk : k ≤ 11) (h : level n k s = .ok e r) : r.length < s.length := by
  obtain ⟨p, rfl, hp⟩ := (sound n).1 k s e r hk h
  have := hp.pos
  simp
  omega

theorem total (n : Nat) :
    (∀ k s, k ≤ 11 → 20 * s.length + 20 ≤ n + k → level n k s ≠ .late) ∧
    (∀ k s, k < 11 → 20 * s.length + 1 ≤ n → many n k s ≠ .late) ∧
    (∀ s, 20 * s.length + 4 ≤ n → unary n s ≠ .late) ∧
    (∀ s, 20 * s.length + 3 ≤ n → primary n s ≠ .late) ∧
    (∀ s, 20 * s.length + 2 ≤ n → func n s ≠ .late) := by
  induction n with
  | zero => refine ⟨?_, ?_, ?_, ?_, ?_⟩ <;> intros <;> omega
  | succ n ih =>
    obtain ⟨ihl, ihm, ihu, ihp, ihf⟩ := ih
    refine ⟨?_, ?_, ?_, ?_, ?_⟩
    · intro k s hk hn
      unfold level
      split
      · refine Res.bind_late (ihl _ _ (by omega) (by omega)) fun a r h => Res.bind_late (ihm _ _ (by omega) ?_) fun _ _ _ => by simp
        have := level_len (by omega) h
        omega
      · exact ihu _ (by omega)
    · intro k s hk hn
      unfold many
      refine Res.orElse_late (Res.bind_late (Res.bind_late (term_late _) fun o r h => Res.bind_late (ihl _ _ (by omega) ?_) fun _ _ _ => by simp) ?_) (by simp)
      · have := firstOf_len hk h
        omega
      · intro x r h
        refine Res.bind_late (ihm _ _ hk ?_) fun _ _ _ => by simp
        obtain ⟨o, r1, h1, h⟩ := Res.bind_ok h
        obtain ⟨b, r2, h2, h⟩ := Res.bind_ok h
        cases h
        have := firstOf_len hk h1
        have := level_len (by omega) h2
        omega
    · intro s hn
      unfold unary
      refine Res.orElse_late (Res.bind_late (term_late _) fun o r h => Res.bind_late (ihu _ ?_) fun _ _ _ => by simp) (ihp _ (by omega))
      have := unops_len h
      omega
    · intro s hn
      unfold primary
      refine Res.orElse_late (Res.bind_late (term_late _) fun _ _ _ => by simp) ?_
      refine Res.orElse_late (Res.bind_late (term_late _) fun _ _ _ => by simp) ?_
      refine Res.orElse_late (Res.bind_late (term_late _) fun _ _ _ => by simp) ?_
      refine Res.orElse_late (ihf _ (by omega)) ?_
      refine Res.bind_late (hide_late _ _) fun _ r h => Res.bind_late (ihl _ _ (by omega) ?_) fun _ _ _ =>
        Res.bind_late (hide_late _ _) fun _ _ _ => by simp
      have := hide_len h
      omega
    · intro s hn
      unfold func
      refine Res.orElse_late ?_ (Res.orElse_late ?_ ?_)
      · refine Res.bind_late (term_late _) fun f r0 h0 => Res.bind_late (hide_late _ _) fun _ r1 h1 => ?_
        have := fName_len h0
        have := hide_len h1
        exact Res.bind_late (ihl _ _ (by omega) (by omega)) fun _ _ _ => Res.bind_late (hide_late _ _) fun _ _ _ => by simp
      · refine Res.bind_late (term_late _) fun f r0 h0 => Res.bind_late (hide_late _ _) fun _ r1 h1 => ?_
        have := fName_len h0
        have := hide_len h1
        refine Res.bind_late (ihl _ _ (by omega) (by omega)) fun _ r2 h2 => Res.bind_late (hide_late _ _) fun _ r3 h3 => ?_
        have := level_len (by omega) h2
        have := hide_len h3
        exact Res.bind_late (ihl _ _ (by omega) (by omega)) fun _ _ _ => Res.bind_late (hide_late _ _) fun _ _ _ => by simp
      · refine Res.bind_late (term_late _) fun f r0 h0 => Res.bind_late (hide_late _ _) fun _ r1 h1 => ?_
        have := fName_len h0
        have := hide_len h1
        refine Res.bind_late (ihl _ _ (by omega) (by omega)) fun _ r2 h2 => Res.bind_late (hide_late _ _) fun _ r3 h3 => ?_
        have := level_len (by omega) h2
        have := hide_len h3
        refine Res.bind_late (ihl _ _ (by omega) (by omega)) fun _ r4 h4 => Res.bind_late (hide_late _ _) fun _ r5 h5 => ?_
        have := level_len (by omega) h4
        have := hide_len h5
        exact Res.bind_late (ihl _ _ (by omega) (by omega)) fun _ _ _ => Res.bind_late (hide_late _ _) fun _ _ _ => by simp

/-! ## C63 -/

/-- the parser comes to a result on every text -/
theorem parse_total (s : Text) : parse s ≠ .late := (total _).1 0 s (by omega) (by omega)

/-- whatever the parser makes of a text is what a prefix of the text says in hvcc's grammar -/
theorem parse_sound {s r : Text} {e : Node} (h : parse s = .ok e r) : ∃ p, s = p ++ r ∧ Writes Hv 0 e p :=
  (sound _).1 0 s e r (by omega) h

/-- every expression, however written in hvcc's grammar, is read as that expression -/
theorem parse_complete {e : Node} {s w : Text} (h : Writes Hv 0 e s) (hw : Blank w) : parse (s ++ w) = .ok e w :=
  complete _ 0 (by omega) e s w _ (Nat.le_refl _) h (follow_end hw) (by simp)

/-- hvcc's grammar is unambiguous -/
theorem unambiguous {e e' : Node} {s : Text} (h : Writes Hv 0 e s) (h' : Writes Hv 0 e' s) : e = e' := by
  have h1 := parse_complete h (w := []) (by simp [Blank])
  have h2 := parse_complete h' (w := []) (by simp [Blank])
  rw [h1] at h2
  cases h2
  rfl

theorem C_ops_mem {j : Nat} {o : Text} (h : o ∈ C.ops j) : (j, o) ∈ [(0, ['|', '|']), (1, ['&', '&']), (2, ['|']), (3, ['^']), (4, ['&']),
    (5, ['=', '=']), (5, ['!', '=']), (6, ['<', '=']), (6, ['>', '=']), (6, ['<']), (6, ['>']), (7, ['<', '<']), (7, ['>', '>']),
    (8, ['+']), (8, ['-']), (9, ['*']), (9, ['/']), (9, ['%'])] := by
  by_cases hj : j < 10
  · interval_cases j <;> simp [C] at h <;> simp [h] <;> tauto
  · have : C.ops j = [] := by
      simp only [C]
      rw [List.getD_eq_getElem?_getD, List.getElem?_eq_none (by simpa using hj)]
      rfl
    rw [this] at h
    exact absurd h (by simp)

theorem c_hv {k : Nat} {e : Node} {s : Text} (h : Writes CNoChain k e s) : Writes Hv (if k ≤ 6 then k else k + 1) e s := by
  induction h with
  | @up k e s hk h ih =>
    have hk' : k ≤ 10 := hk
    by_cases h6 : k ≤ 5
    · rw [if_pos (by omega)] at ih ⊢
      exact .up (show k ≤ 11 by omega) ih
    · by_cases h7 : k = 6
      · subst h7
        exact .up (show 6 ≤ 11 by omega) (.up (show 7 ≤ 11 by omega) ih)
      · rw [if_neg (by omega)] at ih ⊢
        exact .up (show k + 1 ≤ 11 by omega) ih
  | @bin k o a b s w t hk ho _ hw _ iha ihb =>
    have hk' : k < 10 := hk
    have ho' := C_ops_mem ho
    by_cases h6 : k ≤ 5
    · rw [if_pos (by omega)] at ihb ⊢
      have : CNoChain.left k = k := by simp only [CNoChain]; rw [if_neg (by omega)]
      rw [this, if_pos (by omega)] at iha
      refine .bin (show k < 11 by omega) ?_ iha hw ihb
      interval_cases k <;> exact ho
    · by_cases h7 : k = 6
      · subst h7
        have ha : Writes Hv 8 a s := iha
        have hb : Writes Hv 8 b t := ihb
        simp only [List.mem_cons, Prod.mk.injEq, List.not_mem_nil, or_false] at ho'
        have ha7 : Writes Hv 7 a s := .up (by decide) ha
        have hb7 : Writes Hv 7 b t := .up (by decide) hb
        rcases (show o = ['<', '='] ∨ o = ['>', '='] ∨ o = ['<'] ∨ o = ['>'] by simpa using ho') with h | h | h | h
        · exact .bin (show 6 < 11 by omega) (by rw [h]; decide) (Writes.up (show 6 ≤ 11 by omega) ha7) hw hb7
        · exact .bin (show 6 < 11 by omega) (by rw [h]; decide) (Writes.up (show 6 ≤ 11 by omega) ha7) hw hb7
        · exact .up (show 6 ≤ 11 by omega) (.bin (show 7 < 11 by omega) (by rw [h]; decide) ha7 hw hb)
        · exact .up (show 6 ≤ 11 by omega) (.bin (show 7 < 11 by omega) (by rw [h]; decide) ha7 hw hb)
      · rw [if_neg (by omega)] at ihb ⊢
        have : CNoChain.left k = k := by simp only [CNoChain]; rw [if_neg (by omega)]
        rw [this, if_neg (by omega)] at iha
        refine .bin (show k + 1 < 11 by omega) ?_ iha hw ihb
        interval_cases k <;> first | exact ho | omega
  | un ho hw _ ih => exact Writes.un (G := Hv) ho hw ih
  | int hw hd => exact Writes.int (G := Hv) hw hd
  | float hw hd hf => exact Writes.float (G := Hv) hw hd hf
  | var hw hk hd => exact Writes.var (G := Hv) hw hk hd
  | group hw _ hw' ih => exact Writes.group (G := Hv) hw ih hw'
  | fn1 hw hf _ hw' ih => exact Writes.fn1 (G := Hv) hw hf ih hw'
  | fn2 hw hf _ hw' _ hw'' ih ih' => exact Writes.fn2 (G := Hv) hw hf ih hw' ih' hw''
  | fn3 hw hf _ hw' _ hw'' _ hw3 ih ih' ih'' => exact Writes.fn3 (G := Hv) hw hf ih hw' ih' hw'' ih'' hw3

/-- every expression written as in C is read as in C, if no comparison has an unparenthesised comparison as left operand.  Missing:
such chains; with mixed operators the claim is false (`mixed_comparisons`) -/
theorem reads_as_c_partial {e : Node} {s w : Text} (h : Writes CNoChain 0 e s) (hw : Blank w) : parse (s ++ w) = .ok e w :=
  parse_complete (c_hv h) hw

/-- one digit -/
def num1 (c : Char) : Node := .num false [c]

/-- `1>=2<3` is `(1>=2)<3` in C, `1>=(2<3)` for hvcc -/
theorem mixed_comparisons :
    Writes C 0 (.bin ['<'] (.bin ['>', '='] (num1 '1') (num1 '2')) (num1 '3')) "1>=2<3".toList ∧
    parse "1>=2<3".toList = .ok (.bin ['>', '='] (num1 '1') (.bin ['<'] (num1 '2') (num1 '3'))) [] := by
  have n : ∀ c, c ∈ ['1', '2', '3'] → Writes C 7 (num1 c) [c] := by
    intro c hc
    have h : Writes C 11 (num1 c) ([] ++ [c]) := Writes.int (G := C) (by simp [Blank]) (by
      simp only [List.mem_cons, List.not_mem_nil, or_false] at hc
      rcases hc with rfl | rfl | rfl <;> exact ⟨by simp, by decide⟩)
    exact .up (by decide) (.up (by decide) (.up (by decide) (.up (by decide) h)))
  have h1 := n '1' (by simp)
  have h2 := n '2' (by simp)
  have h3 := n '3' (by simp)
  have h6 : Writes C 6 (.bin ['>', '='] (num1 '1') (num1 '2')) (['1'] ++ [] ++ ['>', '='] ++ ['2']) :=
    .bin (by decide) (by decide) (.up (by decide) h1) (by simp [Blank]) h2
  have h7 : Writes C 6 (.bin ['<'] (.bin ['>', '='] (num1 '1') (num1 '2')) (num1 '3')) (['1'] ++ [] ++ ['>', '='] ++ ['2'] ++ [] ++ ['<'] ++ ['3']) :=
    .bin (by decide) (by decide) h6 (by simp [Blank]) h3
  exact ⟨.up (by decide) (.up (by decide) (.up (by decide) (.up (by decide) (.up (by decide) (.up (by decide) h7))))), by decide +kernel⟩

/-- what comes after an expression and cannot continue it is not looked at: no error is reported -/
theorem rest_ignored {e : Node} {s w : Text} {c : Char} (h : Writes Hv 0 e s) (hw : Blank w)
    (hc : c ∉ ['|', '&', '^', '=', '!', '<', '>', '+', '-', '*', '/', '%', '.', ' ', '\t', '\n', '\r'] ∧ isDigit c = false) (rest : Text) :
    parse (s ++ (w ++ c :: rest)) = .ok e (w ++ c :: rest) := by
  obtain ⟨hc, hd⟩ := hc
  simp only [List.mem_cons, List.not_mem_nil, or_false, not_or] at hc
  refine complete _ 0 (by omega) e s _ _ (Nat.le_refl _) h ?_ (by simp)
  have hws : isWs c = false := by
    cases hw : isWs c with
    | false => rfl
    | true => rcases isWs_iff.mp hw with rfl | rfl | rfl | rfl <;> simp at hc
  constructor
  · exact blank_num hw ⟨hd, by tauto⟩
  · intro j _ _ o r ho hs
    rw [skip_app hw hws] at hs
    have := ops_mem ho
    simp only [List.mem_cons, Prod.mk.injEq, List.not_mem_nil, or_false] at this
    rcases this with h | h | h | h | h | h | h | h | h | h | h | h | h | h | h | h | h | h <;>
      rw [h.2] at hs <;> simp at hs <;> tauto

/-- `$v1 + .5` is silently read as `$v1` -/
theorem half_expression : parse "$v1 + .5".toList = .ok (.var "$v1".toList) " + .5".toList := by decide +kernel

/-! ### from the text to the samples -/

variable {V : Type}

/-- the number a row of decimal digits stands for -/
def decimal : Text → Nat
  | [] => 0
  | c :: cs => (c.toNat - '0'.toNat) * 10 ^ cs.length + decimal cs

/-- the value of an expression: `x n` is the signal of inlet `n`, a variable is `$`, a letter and the number of its inlet -/
def Node.value (const : Bool → Text → V) (op : Text → List V → V) (neg : V → V) (x : Nat → V) : Node → V
  | .num fl t => const fl t
  | .var t => x (decimal (t.drop 2))
  | .un o a => if o = ['-'] then neg (a.value const op neg x) else op o [a.value const op neg x]
  | .bin o a b => op o [a.value const op neg x, b.value const op neg x]
  | .fn1 o a => op o [a.value const op neg x]
  | .fn2 o a b => op o [a.value const op neg x, b.value const op neg x]
  | .fn3 o a b c => op o [a.value const op neg x, b.value const op neg x, c.value const op neg x]

theorem number_decimal (ds : Text) : number ds = decimal ds := by
  have : ∀ (ds : Text) (a : Nat), ds.foldl (fun n c => 10 * n + (c.toNat - 48)) a = a * 10 ^ ds.length + decimal ds := by
    intro ds
    induction ds with
    | nil => intro a; simp [decimal]
    | cons c cs ih =>
      intro a
      rw [List.foldl_cons, ih, decimal, List.length_cons, Nat.pow_succ]
      show _ = _ + ((c.toNat - 48) * 10 ^ cs.length + decimal cs)
      rw [Nat.add_mul]
      have : 10 * a * 10 ^ cs.length = a * (10 ^ cs.length * 10) := by rw [Nat.mul_comm 10 a, Nat.mul_assoc, Nat.mul_comm 10]
      omega
  have h := this ds 0
  rw [Nat.zero_mul, Nat.zero_add] at h
  exact h

theorem bindVar_some {t : Text} {n : Nat} (h : bindVar t = some n) : n = decimal (t.drop 2) := by
  unfold bindVar at h
  split at h
  · cases h; exact number_decimal _
  · cases h; exact number_decimal _
  · exact absurd h (by simp)

theorem toEx_value {code : Text → Nat} {e : Node} {x : ExprSig.Ex} (h : e.toEx code = some x) (A : ExprSig.Alg V)
    (const : Bool → Text → V) (op : Text → List V → V) (neg : V → V) (sig : Nat → V)
    (hc : ∀ fl t, A.const ⟨!fl, code t⟩ = const fl t) (ho : ∀ o n, opNum o = some n → A.op n = op o) :
    x.value A neg sig = e.value const op neg sig := by
  induction e generalizing x with
  | num fl t => cases h; exact hc fl t
  | var t =>
    simp only [Node.toEx, Option.map_eq_some_iff] at h
    obtain ⟨n, hn, rfl⟩ := h
    simp only [ExprSig.Ex.value, Node.value, bindVar_some hn]
  | un o a ih =>
    simp only [Node.toEx] at h
    split at h
    · rename_i h1
      simp only [Option.map_eq_some_iff] at h
      obtain ⟨y, hy, rfl⟩ := h
      simp only [ExprSig.Ex.value, Node.value, h1, if_true, ih hy]
    · rename_i h1
      simp only [Option.bind_eq_some_iff, Option.map_eq_some_iff] at h
      obtain ⟨f, hf, y, hy, rfl⟩ := h
      simp only [ExprSig.Ex.value, Node.value, h1, if_false, ih hy, ho o f hf]
  | bin o a b iha ihb =>
    simp only [Node.toEx, Option.bind_eq_some_iff, Option.map_eq_some_iff] at h
    obtain ⟨f, hf, y, hy, z, hz, rfl⟩ := h
    simp only [ExprSig.Ex.value, Node.value, iha hy, ihb hz, ho o f hf]
  | fn1 o a ih =>
    simp only [Node.toEx, Option.bind_eq_some_iff, Option.map_eq_some_iff] at h
    obtain ⟨f, hf, y, hy, rfl⟩ := h
    simp only [ExprSig.Ex.value, Node.value, ih hy, ho o f hf]
  | fn2 o a b iha ihb =>
    simp only [Node.toEx, Option.bind_eq_some_iff, Option.map_eq_some_iff] at h
    obtain ⟨f, hf, y, hy, z, hz, rfl⟩ := h
    simp only [ExprSig.Ex.value, Node.value, iha hy, ihb hz, ho o f hf]
  | fn3 o a b c iha ihb ihc =>
    simp only [Node.toEx, Option.bind_eq_some_iff, Option.map_eq_some_iff] at h
    obtain ⟨f, hf, y, hy, z, hz, u, hu, rfl⟩ := h
    simp only [ExprSig.Ex.value, Node.value, iha hy, ihb hz, ihc hu, ho o f hf]

/-- from the text to the output: the lines generated for the text `s`, written as in C, compute the value of the expression.  Missing:
chains of comparisons; a lone variable or number and more than ten buffers (see `ExprSig.expr_correct_partial`) -/
theorem expr_text_correct_partial {pick : List ExprSig.Instr → List Nat → Nat} (hp : ExprSig.Pick pick) {code : Text → Nat}
    {e : Node} {s w : Text} (h : Writes CNoChain 0 e s) (hw : Blank w) {x : ExprSig.Ex} (hx : e.toEx code = some x)
    (hcomp : x.Compound) (hb : x.buffers ≤ 10) (A : ExprSig.Alg V) (bIns : Int → V)
    (const : Bool → Text → V) (op : Text → List V → V) (neg : V → V) (sig : Nat → V)
    (hc : ∀ fl t, A.const ⟨!fl, code t⟩ = const fl t) (ho : ∀ o n, opNum o = some n → A.op n = op o)
    (hs : ∀ n : Nat, bIns ((n : Int) - 1) = sig n) (hneg : ∀ v, A.op ExprSig.opSub [A.const ExprSig.zeroF, v] = neg v) :
    ∃ lines, compile pick code (s ++ w) = some (x.buffers, lines) ∧
      ∀ m : ExprSig.Mem V, (ExprSig.exec A bIns lines m).out = e.value const op neg sig := by
  obtain ⟨h1, _, h3⟩ := ExprSig.expr_correct_partial hp x hcomp hb A bIns neg sig hs hneg
  refine ⟨(ExprSig.evaluator pick x).2, ?_, fun m => ?_⟩
  · unfold compile
    rw [reads_as_c_partial h hw]
    simp only [hx, Option.map_some, ← h1]
  · rw [h3 m, toEx_value hx A const op neg sig hc ho]

/-- every operator and function of the grammar has an implementation, but for `drem` -/
theorem names_known : (∀ k < 11, ∀ o ∈ ops k, (opNum o).isSome) ∧ (∀ o ∈ unops, (opNum o).isSome) ∧
    ∀ f ∈ names, f ≠ "drem".toList → (opNum f).isSome := by decide +kernel

/-- `drem`, `$i1` and `$s1` are accepted by the parser and are then an exception -/
theorem accepted_then_exception (pick : List ExprSig.Instr → List Nat → Nat) (code : Text → Nat) :
    (∀ s ∈ ["drem(1)".toList, "$i1+1".toList, "$s1+1".toList], ∃ e, parse s = .ok e []) ∧
    ∀ s ∈ ["drem(1)".toList, "$i1+1".toList, "$s1+1".toList], compile pick code s = none := by
  have h1 : parse "drem(1)".toList = .ok (.fn1 "drem".toList (num1 '1')) [] := by decide +kernel
  have h2 : parse "$i1+1".toList = .ok (.bin ['+'] (.var "$i1".toList) (num1 '1')) [] := by decide +kernel
  have h3 : parse "$s1+1".toList = .ok (.bin ['+'] (.var "$s1".toList) (num1 '1')) [] := by decide +kernel
  have h4 : opNum "drem".toList = none := by decide +kernel
  constructor
  · intro s hs
    simp only [List.mem_cons, List.not_mem_nil, or_false] at hs
    rcases hs with rfl | rfl | rfl
    · exact ⟨_, h1⟩
    · exact ⟨_, h2⟩
    · exact ⟨_, h3⟩
  · intro s hs
    simp only [List.mem_cons, List.not_mem_nil, or_false] at hs
    rcases hs with rfl | rfl | rfl
    · unfold compile; rw [h1]; simp only [Node.toEx, h4]; rfl
    · unfold compile; rw [h2]; simp [Node.toEx, bindVar]
    · unfold compile; rw [h3]; simp [Node.toEx, bindVar]

/-! ### an instance -/

/-- `$v1 *2+ -$v2` -/
def sample : Node := .bin ['+'] (.bin ['*'] (.var "$v1".toList) (num1 '2')) (.un ['-'] (.var "$v2".toList))

theorem sample_written : Writes CNoChain 0 sample "$v1 *2+ -$v2".toList := by
  have v1 : Writes CNoChain 11 (.var "$v1".toList) ([] ++ ['$', 'v', '1']) :=
    Writes.var (G := CNoChain) (by simp [Blank]) (by decide) ⟨by simp, by decide⟩
  have v2 : Writes CNoChain 11 (.var "$v2".toList) ([] ++ ['$', 'v', '2']) :=
    Writes.var (G := CNoChain) (by simp [Blank]) (by decide) ⟨by simp, by decide⟩
  have n2 : Writes CNoChain 11 (num1 '2') ([] ++ ['2']) := Writes.int (G := CNoChain) (by simp [Blank]) ⟨by simp, by decide⟩
  have m : Writes CNoChain 10 (.un ['-'] (.var "$v2".toList)) ([' '] ++ ['-'] ++ ['$', 'v', '2']) :=
    Writes.un (G := CNoChain) (by decide) (by simp [Blank]) (.up (by decide) v2)
  have f : Writes CNoChain 9 (.bin ['*'] (.var "$v1".toList) (num1 '2')) (['$', 'v', '1'] ++ [' '] ++ ['*'] ++ ['2']) :=
    .bin (by decide) (by decide) (Writes.up (k := 9) (by decide) (.up (by decide) v1)) (by simp [Blank]) (.up (by decide) n2)
  have t : Writes CNoChain 8 sample (['$', 'v', '1'] ++ [' '] ++ ['*'] ++ ['2'] ++ [] ++ ['+'] ++ ([' '] ++ ['-'] ++ ['$', 'v', '2'])) :=
    .bin (by decide) (by decide) (Writes.up (k := 8) (by decide) f) (by simp [Blank]) (.up (by decide) m)
  exact .up (by decide) (.up (by decide) (.up (by decide) (.up (by decide) (.up (by decide) (.up (by decide)
    (.up (by decide) (.up (by decide) t)))))))

example : parse ("$v1 *2+ -$v2".toList ++ [' ']) = .ok sample [' '] := reads_as_c_partial sample_written (w := [' ']) (by simp [Blank])

/-- integers -/
def intAlg : ExprSig.Alg Int :=
  ⟨fun c => c.text, fun f l => if f = 0 then l.headD 0 - l.tail.headD 0 else if f = 6 then l.sum else l.prod⟩

/-- the output for the inputs 5, 3 is 5 * 2 + -3 -/
example : ∃ lines, compile ExprSig.pickHead number "$v1 *2+ -$v2".toList = some (3, lines) ∧
    ∀ m : ExprSig.Mem Int, (ExprSig.exec intAlg (fun i => if i = 0 then 5 else 3) lines m).out = 7 := by
  have key := expr_text_correct_partial ExprSig.pickHead_ok (code := number) sample_written (w := []) (by simp [Blank])
    (x := .bin 6 (.bin 3 (.var 1) (.num ⟨true, 2⟩)) (.neg (.var 2))) (by decide +kernel) trivial (by decide) intAlg
    (fun i => if i = 0 then 5 else 3) (fun fl t => intAlg.const ⟨!fl, number t⟩) (fun o => intAlg.op ((opNum o).getD 0)) (- ·)
    (fun n => if n = 1 then 5 else 3) (fun _ _ => rfl) (fun o n h => by rw [h]; rfl)
    (fun n => by
      by_cases h : n = 1
      · subst h; rfl
      · have : ¬ ((n : Int) - 1 = 0) := by omega
        simp [h, this])
    (fun v => by simp [intAlg, ExprSig.opSub, ExprSig.zeroF])
  obtain ⟨lines, h1, h2⟩ := key
  refine ⟨lines, by rw [List.append_nil] at h1; exact h1, fun m => ?_⟩
  rw [h2 m]
  decide +kernel

end Verif.ExprParse
