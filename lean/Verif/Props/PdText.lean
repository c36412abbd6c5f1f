import Verif.PdText
import Mathlib.Tactic.ByContra
/-!
C42: specification and proofs.
-/
namespace Verif.PdText

/-! ## Specification: how a file is written -/

/-- spaces in arguments are written with a backslash -/
def escape (a : Text) : Text := a.flatMap fun c => if c = ' ' then ['\\', ' '] else [c]

/-- arguments are separated by spaces -/
def join : List Text → Text
  | [] => []
  | [t] => t
  | t :: u :: ts => t ++ ' ' :: join (u :: ts)

/-- the width of an object box: `, f ` and digits -/
def widthText : Option Text → Text
  | none => []
  | some ds => [',', ' ', 'f', ' '] ++ ds

/-- a statement: its arguments and the optional width -/
structure Stmt where
  args : List Text
  width : Option Text

def Stmt.text (s : Stmt) : Text := join (s.args.map escape) ++ widthText s.width

inductive Newline
  | lf | crlf

def Newline.text : Newline → Text
  | .lf => ['\n']
  | .crlf => ['\r', '\n']

/-- a statement, broken into lines, is ended by a semicolon -/
def written (nl : Newline) : List Text → Text
  | [] => [';'] ++ nl.text
  | [l] => l ++ [';'] ++ nl.text
  | l :: k :: ls => l ++ nl.text ++ written nl (k :: ls)

/-- `ls` is the text of a statement broken into lines at spaces: the lines joined by spaces are the text -/
structure Broken (ls : List Text) (t : Text) : Prop where
  text : join ls = t
  nonempty : ls ≠ []
  /-- a statement does not start with a line break -/
  start : ls.length ≠ 1 → ls.head? ≠ some []
  /-- every semicolon that ends up at the end of a line is escaped -/
  semicolons : ∀ l ∈ ls.dropLast, ends l = false
  /-- the text does not end in a backslash -/
  last : ∀ l, ls.getLast? = some l → l.getLast? ≠ some '\\'
  newlines : ∀ l ∈ ls, ∀ c ∈ l, c ≠ '\n' ∧ c ≠ '\r'

/-- a statement whose arguments can be read back -/
structure Stmt.Ok (s : Stmt) : Prop where
  nonempty : s.args ≠ []
  /-- no argument, except the last one, ends in a backslash -/
  backslash : ∀ a ∈ s.args.dropLast, a.getLast? ≠ some '\\'
  digits : ∀ ds, s.width = some ds → ds ≠ [] ∧ ∀ c ∈ ds, isDigit c = true
  /-- without a width, the text does not end like one -/
  noWidth : s.width = none → ∀ p ds, join (s.args.map escape) = p ++ [',', ' ', 'f', ' '] ++ ds → ds ≠ [] → ∃ c ∈ ds, isDigit c = false

/-! ## Lines -/

theorem universal_line {l : Text} (hl : ∀ c ∈ l, c ≠ '\n' ∧ c ≠ '\r') (rest : Text) : universal (l ++ rest) = l ++ universal rest := by
  induction l with
  | nil => rfl
  | cons c l ih =>
    have hc := (hl c (by simp)).2
    have := ih fun d hd => hl d (by simp [hd])
    rw [List.cons_append, List.cons_append, ← this]
    rw [universal.eq_def]
    split
    · rename_i e; simp at e
    · rename_i e; exact absurd (List.cons.inj e).1 hc
    · rename_i e; exact absurd (List.cons.inj e).1 hc
    · rename_i e; obtain ⟨rfl, rfl⟩ := List.cons.inj e; rfl

theorem universal_newline (nl : Newline) (rest : Text) : universal (nl.text ++ rest) = '\n' :: universal rest := by
  match nl with
  | .lf => simp [Newline.text, universal]
  | .crlf => simp [Newline.text, universal]

theorem lines_line {l : Text} (hl : ∀ c ∈ l, c ≠ '\n') (acc rest : Text) : lines acc (l ++ '\n' :: rest) = (acc.reverse ++ l) :: lines [] rest := by
  induction l generalizing acc with
  | nil => simp [lines]
  | cons c l ih =>
    rw [List.cons_append, lines, if_neg (hl c (by simp)), ih fun d hd => hl d (by simp [hd])]
    simp

theorem rstrip_line {l : Text} (hl : ∀ c ∈ l, c ≠ '\n' ∧ c ≠ '\r') : rstrip l = l := by
  unfold rstrip
  have : (l.reverse.dropWhile fun c => c = '\r' || c = '\n') = l.reverse := by
    match h : l.reverse with
    | [] => rfl
    | c :: cs =>
      have hc := hl c (by rw [← List.mem_reverse, h]; simp)
      rw [List.dropWhile_cons, if_neg (by simp [hc.1, hc.2])]
  rw [this, List.reverse_reverse]

/-- the lines of the file, before they are joined -/
def rawLines : List Text → List Text
  | [] => [[';']]
  | [l] => [l ++ [';']]
  | l :: k :: ls => l :: rawLines (k :: ls)

theorem lines_written (nl : Newline) {ls : List Text} (hl : ∀ l ∈ ls, ∀ c ∈ l, c ≠ '\n' ∧ c ≠ '\r') (rest : Text) :
    lines [] (universal (written nl ls ++ rest)) = rawLines ls ++ lines [] (universal rest) := by
  have one : ∀ (l rest : Text), (∀ c ∈ l, c ≠ '\n' ∧ c ≠ '\r') →
      lines [] (universal (l ++ nl.text ++ rest)) = l :: lines [] (universal rest) := by
    intro l rest hl
    rw [List.append_assoc, universal_line hl, universal_newline, lines_line fun c hc => (hl c hc).1]
    rfl
  match ls, hl with
  | [], _ => exact one [';'] rest (by simp)
  | [l], hl =>
    refine one (l ++ [';']) rest ?_
    intro c hc
    rcases List.mem_append.mp hc with hc | hc
    · exact hl l (by simp) c hc
    · rw [List.mem_singleton.mp hc]; decide
  | l :: k :: ls, hl =>
    rw [written, List.append_assoc, one l _ (hl l (by simp)), lines_written nl (ls := k :: ls) fun x hx => hl x (by simp [hx])]
    rfl

theorem ends_last {l : Text} (h : l.getLast? ≠ some '\\') : ends (l ++ [';']) = true := by
  unfold ends
  have h1 : [';'].isSuffixOf (l ++ [';']) = true := by rw [List.isSuffixOf_iff_suffix]; exact List.suffix_append l [';']
  have h2 : ['\\', ';'].isSuffixOf (l ++ [';']) = false := by
    by_contra hc
    have := List.isSuffixOf_iff_suffix.mp (Bool.of_not_eq_false hc)
    obtain ⟨t, ht⟩ := this
    have : t ++ ['\\'] = l := by
      have : (t ++ ['\\']) ++ [';'] = l ++ [';'] := by simpa using ht
      exact List.append_cancel_right this
    rw [← this] at h
    simp at h
  rw [h1, h2]; rfl

theorem loop_from {ls : List Text} (hne : ls ≠ []) (hs : ∀ l ∈ ls.dropLast, ends l = false)
    (hl : ∀ l, ls.getLast? = some l → l.getLast? ≠ some '\\') (hn : ∀ l ∈ ls, ∀ c ∈ l, c ≠ '\n' ∧ c ≠ '\r')
    (concat : Text) (hc : concat ≠ []) (rest : List Text) :
    loop concat (rawLines ls ++ rest) = (concat ++ ' ' :: join ls) :: loop [] rest := by
  match ls, hne with
  | [l], _ =>
    have hr : rstrip (l ++ [';']) = l ++ [';'] := rstrip_line (by
      intro c hc'
      rcases List.mem_append.mp hc' with h | h
      · exact hn l (by simp) c h
      · rw [List.mem_singleton.mp h]; decide)
    have hpos : concat.length > 0 := List.length_pos_iff.mpr hc
    simp only [rawLines, List.cons_append, List.nil_append, loop, hr, ends_last (hl l rfl), if_true, hpos, List.dropLast_concat, join]
    simp
  | l :: k :: ls, _ =>
    have hr : rstrip l = l := rstrip_line (hn l (by simp))
    have he : ends l = false := hs l (by simp [List.dropLast])
    have hpos : concat.length > 0 := List.length_pos_iff.mpr hc
    rw [rawLines, List.cons_append, loop]
    simp only [hr, he, Bool.false_eq_true, if_false, hpos, if_true]
    rw [loop_from (ls := k :: ls) (by simp) (fun x hx => hs x (by
        rw [List.dropLast_cons_of_ne_nil (by simp)]; exact List.mem_cons_of_mem _ hx))
      (fun x hx => hl x (by rw [List.getLast?_cons_cons]; exact hx)) (fun x hx => hn x (by simp [hx])) _ (by simp) rest]
    simp [join]

/-- the lines of one statement are joined again -/
theorem loop_statement {ls : List Text} {t : Text} (h : Broken ls t) (rest : List Text) : loop [] (rawLines ls ++ rest) = t :: loop [] rest := by
  obtain ⟨rfl, hne, hst, hs, hl, hn⟩ := h
  match ls, hne with
  | [l], _ =>
    have hr : rstrip (l ++ [';']) = l ++ [';'] := rstrip_line (by
      intro c hc'
      rcases List.mem_append.mp hc' with h | h
      · exact hn l (by simp) c h
      · rw [List.mem_singleton.mp h]; decide)
    simp [rawLines, loop, hr, ends_last (hl l rfl), join]
  | l :: k :: ls, _ =>
    have hr : rstrip l = l := rstrip_line (hn l (by simp))
    have he : ends l = false := hs l (by simp [List.dropLast])
    have hne : l ≠ [] := by
      intro e
      exact hst (by simp) (by rw [e]; rfl)
    rw [rawLines, List.cons_append, loop]
    simp only [hr, he, Bool.false_eq_true, if_false, List.length_nil, Nat.lt_irrefl, gt_iff_lt]
    rw [loop_from (ls := k :: ls) (by simp) (fun x hx => hs x (by
        rw [List.dropLast_cons_of_ne_nil (by simp)]; exact List.mem_cons_of_mem _ hx))
      (fun x hx => hl x (by rw [List.getLast?_cons_cons]; exact hx)) (fun x hx => hn x (by simp [hx])) _ hne rest]
    simp [join]

/-! ## Arguments -/

theorem escape_cons (c : Char) (a : Text) : escape (c :: a) = (if c = ' ' then ['\\', ' '] else [c]) ++ escape a := by simp [escape]

theorem escape_head (a : Text) : (escape a).head? ≠ some ' ' := by
  cases a with
  | nil => simp [escape]
  | cons c a =>
    rw [escape_cons]
    by_cases h : c = ' ' <;> simp [h]

theorem unescape_escape (a : Text) : unescape (escape a) = a := by
  induction a with
  | nil => rfl
  | cons c a ih =>
    rw [escape_cons]
    by_cases h : c = ' '
    · rw [if_pos h]
      simp [unescape, ih, h]
    · rw [if_neg h, List.singleton_append]
      have hh := escape_head a
      rw [unescape.eq_def]
      split
      · rename_i e; simp at e
      · rename_i e
        rw [(List.cons.inj e).2] at hh
        simp at hh
      · rename_i e
        obtain ⟨rfl, rfl⟩ := List.cons.inj e
        rw [ih]

/-- does the text (after a character that is a backslash or not) end in a backslash? -/
def endsIn (b : Bool) : Text → Bool
  | [] => b
  | c :: cs => endsIn (c = '\\') cs

theorem endsIn_false {a : Text} (h : a.getLast? ≠ some '\\') : endsIn false a = false := by
  have gen : ∀ (a : Text) (b : Bool), a ≠ [] → a.getLast? ≠ some '\\' → endsIn b a = false := by
    intro a
    induction a with
    | nil => simp
    | cons c a ih =>
      intro b _ h
      cases a with
      | nil => simpa [endsIn] using h
      | cons d a => rw [endsIn]; exact ih _ (by simp) (by rwa [List.getLast?_cons_cons] at h)
  cases a with
  | nil => rfl
  | cons c a => exact gen _ _ (by simp) h

theorem splitSpaces_arg (a : Text) (b : Bool) (rest : Text) (h : endsIn b a = false) :
    splitSpaces b (escape a ++ ' ' :: rest) = escape a :: splitSpaces false rest := by
  induction a generalizing b with
  | nil =>
    have : b = false := h
    subst this
    simp [escape, splitSpaces]
  | cons c a ih =>
    rw [escape_cons]
    rw [endsIn] at h
    by_cases hc : c = ' '
    · have hf : decide (c = '\\') = false := by rw [hc]; decide
      rw [hf] at h
      rw [if_pos hc]
      simp [splitSpaces, ih false h, consHead]
    · rw [if_neg hc, List.singleton_append, List.cons_append, splitSpaces]
      simp [hc, ih _ h, consHead]

theorem splitSpaces_last (a : Text) (b : Bool) : splitSpaces b (escape a) = [escape a] := by
  induction a generalizing b with
  | nil => simp [escape, splitSpaces]
  | cons c a ih =>
    rw [escape_cons]
    by_cases hc : c = ' '
    · rw [if_pos hc]
      simp [splitSpaces, ih, consHead]
    · rw [if_neg hc, List.singleton_append, splitSpaces]
      simp [hc, ih, consHead]

theorem splitSpaces_join {args : List Text} (hne : args ≠ []) (h : ∀ a ∈ args.dropLast, a.getLast? ≠ some '\\') :
    splitSpaces false (join (args.map escape)) = args.map escape := by
  match args, hne with
  | [a], _ => exact splitSpaces_last a false
  | a :: b :: as, _ =>
    have h1 := h a (by simp [List.dropLast])
    have ih := splitSpaces_join (args := b :: as) (by simp) (fun x hx => h x (by
      rw [List.dropLast_cons_of_ne_nil (by simp)]; exact List.mem_cons_of_mem _ hx))
    rw [List.map_cons, List.map_cons, join, splitSpaces_arg a false _ (endsIn_false h1), ← List.map_cons, ih]

theorem takeWhile_all {ds rest : Text} (hd : ∀ c ∈ ds, isDigit c = true) (hr : ∀ c, rest.head? = some c → isDigit c = false) :
    (ds ++ rest).takeWhile isDigit = ds ∧ (ds ++ rest).dropWhile isDigit = rest := by
  induction ds with
  | nil =>
    cases rest with
    | nil => exact ⟨rfl, rfl⟩
    | cons c cs => simp [List.takeWhile_cons, List.dropWhile_cons, hr c rfl]
  | cons d ds ih =>
    obtain ⟨h1, h2⟩ := ih fun c hc => hd c (by simp [hc])
    simp [List.takeWhile_cons, List.dropWhile_cons, hd d (by simp), h1, h2]

theorem dropWidth_some {p ds : Text} (hne : ds ≠ []) (hd : ∀ c ∈ ds, isDigit c = true) : dropWidth (p ++ widthText (some ds)) = p := by
  have e : (p ++ widthText (some ds)).reverse = ds.reverse ++ ([' ', 'f', ' ', ','] ++ p.reverse) := by simp [widthText]
  obtain ⟨h1, h2⟩ := takeWhile_all (ds := ds.reverse) (rest := [' ', 'f', ' ', ','] ++ p.reverse)
    (fun c hc => hd c (List.mem_reverse.mp hc)) (by intro c hc; have : ' ' = c := by simpa using hc
                                                    exact this ▸ by decide)
  unfold dropWidth
  simp only [e, h1, h2]
  rw [if_pos ⟨by simpa using hne, by simp⟩]
  simp

theorem dropWidth_none {t : Text} (h : ∀ p ds, t = p ++ [',', ' ', 'f', ' '] ++ ds → ds ≠ [] → ∃ c ∈ ds, isDigit c = false) : dropWidth t = t := by
  unfold dropWidth
  simp only
  split
  · rename_i hc
    exfalso
    obtain ⟨h1, h2⟩ := hc
    obtain ⟨q, hq⟩ := List.isPrefixOf_iff_prefix.mp h2
    have ht : t = q.reverse ++ [',', ' ', 'f', ' '] ++ (t.reverse.takeWhile isDigit).reverse := by
      have := List.takeWhile_append_dropWhile (p := isDigit) (l := t.reverse)
      rw [← hq] at this
      have := congrArg List.reverse this
      rw [List.reverse_reverse] at this
      generalize t.reverse.takeWhile isDigit = w at this
      rw [← this]
      simp
    obtain ⟨c, hc, hcd⟩ := h _ _ ht (by simpa using h1)
    have mt : ∀ (l : Text), ∀ c ∈ l.takeWhile isDigit, isDigit c = true := by
      intro l
      induction l with
      | nil => simp
      | cons d l ih =>
        intro c hc
        rw [List.takeWhile_cons] at hc
        split at hc
        · rcases List.mem_cons.mp hc with rfl | hc
          · assumption
          · exact ih c hc
        · simp at hc
    have := mt _ c (List.mem_reverse.mp hc)
    rw [hcd] at this
    exact absurd this (by simp)
  · rfl

/-! ## C42 -/

/-- A file is read back as the texts of its statements, however they are broken into lines, for both kinds of line ends. -/
theorem statements_read_partial {nl : Newline} {ss : List (List Text × Text)} (h : ∀ s ∈ ss, Broken s.1 s.2) :
    statements (ss.flatMap fun s => written nl s.1) = ss.map (·.2) := by
  unfold statements
  induction ss with
  | nil => rfl
  | cons s ss ih =>
    have hs := h s (by simp)
    rw [List.flatMap_cons, lines_written nl hs.newlines, loop_statement hs, ih fun x hx => h x (by simp [hx])]
    rfl

/-- The text of a statement is read back as its arguments, with their spaces, and without the width of the box. -/
theorem splitLine_args_partial {s : Stmt} (h : s.Ok) : splitLine s.text = s.args := by
  unfold splitLine
  have : dropWidth s.text = join (s.args.map escape) := by
    unfold Stmt.text
    match hw : s.width with
    | none => rw [widthText, List.append_nil]; exact dropWidth_none (h.noWidth hw)
    | some ds => exact dropWidth_some (h.digits ds hw).1 (h.digits ds hw).2
  rw [this, splitSpaces_join h.nonempty h.backslash, List.map_map]
  exact (List.map_congr_left (g := id) fun a _ => unescape_escape a).trans (List.map_id _)

/-- Together: a file is read back as the arguments of its statements. -/
theorem file_read_partial {nl : Newline} {ss : List (List Text × Stmt)} (h : ∀ s ∈ ss, s.2.Ok ∧ Broken s.1 s.2.text) :
    (statements (ss.flatMap fun s => written nl s.1)).map splitLine = ss.map fun s => s.2.args := by
  have := statements_read_partial (nl := nl) (ss := ss.map fun s => (s.1, s.2.text)) (by
    intro x hx
    obtain ⟨s, hs, rfl⟩ := List.mem_map.mp hx
    exact (h s hs).2)
  rw [List.flatMap_map] at this
  rw [this, List.map_map, List.map_map]
  exact List.map_congr_left fun s hs => splitLine_args_partial (h s hs).1

/-- a concrete case: a message box over two lines with an escaped semicolon at the end of a line, and an object with a width -/
example : (statements "#X msg 10 20 a\\ b \\;\nc;\n#X obj 1 2 osc~ 440, f 7;\n".toList).map splitLine =
    [["#X".toList, "msg".toList, "10".toList, "20".toList, "a b".toList, "\\;".toList, "c".toList],
     ["#X".toList, "obj".toList, "1".toList, "2".toList, "osc~".toList, "440".toList]] := by
  decide +kernel

example : (⟨["#X".toList, "a b".toList], some "12".toList⟩ : Stmt).Ok ∧
    Broken ["#X".toList, "a\\ b, f 12".toList] (Stmt.text ⟨["#X".toList, "a b".toList], some "12".toList⟩) := by
  refine ⟨⟨by simp, by decide +kernel, ?_, by simp⟩, ⟨by decide +kernel, by simp, by decide +kernel, by decide +kernel, ?_, by decide +kernel⟩⟩
  · intro ds h
    have h : "12".toList = ds := by simpa using h
    subst h
    decide +kernel
  · intro l h
    have h : "a\\ b, f 12".toList = l := by simpa using h
    subst h
    decide +kernel

/-- Finding: a statement that ends in a backslash is joined with the next one (in a Pd file a backslash is written `\\\\`). -/
theorem backslash_swallows_statement :
    statements "#X text 0 0 a\\\\;\n#X obj 0 0 b;\n".toList = ["#X text 0 0 a\\\\; #X obj 0 0 b".toList] := by decide +kernel

/-- Finding: an argument that ends in a backslash is joined with the next one. -/
theorem backslash_joins_arguments : splitLine "a\\\\ b".toList = ["a\\ b".toList] := by decide +kernel

/-- Finding: a second statement on the same line is not recognised. -/
theorem two_on_a_line (s t : Text) (h : ∀ c ∈ s ++ t, c ≠ '\n' ∧ c ≠ '\r') (ht : t.getLast? ≠ some '\\') (hne : t ≠ []) :
    statements (s ++ [';'] ++ t ++ [';', '\n']) = [s ++ [';'] ++ t] := by
  have hb : Broken [s ++ [';'] ++ t] (s ++ [';'] ++ t) := by
    refine ⟨rfl, by simp, by simp, by simp, ?_, ?_⟩
    · intro l hl
      have : s ++ [';'] ++ t = l := by simpa using hl
      subst this
      rw [List.getLast?_append]
      match hq : t.getLast? with
      | none => exact absurd (List.getLast?_eq_none_iff.mp hq) hne
      | some c => rw [hq] at ht; simpa using ht
    · intro l hl c hc
      rw [List.mem_singleton.mp hl] at hc
      simp only [List.mem_append, List.mem_singleton] at hc
      rcases hc with (hc | rfl) | hc
      · exact h c (by simp [hc])
      · decide
      · exact h c (by simp [hc])
  have := statements_read_partial (nl := .lf) (ss := [([s ++ [';'] ++ t], s ++ [';'] ++ t)]) (by
    intro x hx; rw [List.mem_singleton.mp hx]; exact hb)
  simpa [written, Newline.text] using this

end Verif.PdText
