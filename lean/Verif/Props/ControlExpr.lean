import Verif.ControlExpr
/-!
C40: specification and proof.
-/
namespace Verif.ControlExpr

/-! ## Specification -/

/-- the parts of an expression: a variable `$f12`, a word (a name or digits), an escaped comma, any other character -/
inductive Tok
  | var (t : Char) (ds : Text)
  | word (w : Text)
  | comma
  | sym (c : Char)
  deriving DecidableEq, Repr

def Tok.text : Tok → Text
  | .var t ds => '$' :: t :: ds
  | .word w => w
  | .comma => ['\\', ',']
  | .sym c => [c]

def Tok.Ok : Tok → Prop
  | .var t ds => (t = 'f' ∨ t = 'i') ∧ ds ≠ [] ∧ ∀ c ∈ ds, isDigit c
  | .word w => w ≠ [] ∧ ∀ c ∈ w, isWord c
  | .comma => True
  | .sym c => isWord c = false ∧ c ≠ '$' ∧ c ≠ '\\'

def Tok.isAtom : Tok → Bool
  | .var _ _ => true
  | .word _ => true
  | _ => false

def text (ts : List Tok) : Text := ts.flatMap Tok.text

/-- words and variables do not touch one another -/
def Sep : List Tok → Prop
  | x :: y :: ts => ¬ (x.isAtom ∧ y.isAtom) ∧ Sep (y :: ts)
  | _ => True

/-- the parts are correct, and words and variables do not touch one another -/
structure Expr (ts : List Tok) : Prop where
  ok : ∀ t ∈ ts, t.Ok
  sep : Sep ts

/-- the C name of a function -/
def cName (w : Text) : Text :=
  match names.find? fun x => x.1 = w with
  | some x => x.2
  | none => w

/-- the C type of `$f`, `$i` -/
def cType (t : Char) : Text := if t = 'f' then "float".toList else "int".toList

/-- the C expression: `$fN` is `((float)(args[N-1]))`, a word before a parenthesis is a function, everything else stays -/
def render (a : Text) : List Tok → Text
  | [] => []
  | .var t ds :: ts => "((".toList ++ cType t ++ ")(".toList ++ a ++ "[".toList ++ decPred (number ds) ++ "]))".toList ++ render a ts
  | .word w :: ts => (if ts.head? = some (.sym '(') then cName w else w) ++ render a ts
  | .comma :: ts => ',' :: render a ts
  | .sym c :: ts => c :: render a ts

/-! ## Scanning -/

/-- is the character before the rest a word character? -/
def lw (b : Bool) : Text → Bool
  | [] => b
  | c :: cs => lw (isWord c) cs

def NoMatch (p : Bool → Text → Bool) (rest : Text) : Bool → Text → Prop
  | _, [] => True
  | b, c :: cs => p b (c :: (cs ++ rest)) = false ∧ NoMatch p rest (isWord c) cs

theorem scan_pass {p : Bool → Text → Bool} {r : Text} {len : Nat} {rest : Text} (a : Text) {b : Bool} (h : NoMatch p rest b a) :
    scan p r len b 0 (a ++ rest) = a ++ scan p r len (lw b a) 0 rest := by
  induction a generalizing b with
  | nil => rfl
  | cons c cs ih =>
    rw [List.cons_append, scan, h.1]
    simp only [Bool.false_eq_true, if_false, List.cons_append, List.cons.injEq, true_and]
    exact ih h.2

theorem scan_skip {p : Bool → Text → Bool} {r : Text} {len : Nat} {rest : Text} (a : Text) (b : Bool) :
    scan p r len b a.length (a ++ rest) = scan p r len (lw b a) 0 rest := by
  induction a generalizing b with
  | nil => rfl
  | cons c cs ih => exact ih _

theorem scan_hit {p : Bool → Text → Bool} {r : Text} {rest : Text} {a : Text} {b : Bool} (ha : a ≠ [])
    (h : p b (a ++ rest) = true) : scan p r a.length b 0 (a ++ rest) = r ++ scan p r a.length (lw b a) 0 rest := by
  cases a with
  | nil => exact absurd rfl ha
  | cons c cs =>
    rw [List.cons_append] at h ⊢
    rw [scan, h]
    simp only [if_true, List.length_cons, Nat.add_sub_cancel]
    rw [scan_skip]
    rfl

theorem noMatch_of {p : Bool → Text → Bool} {rest : Text} {a : Text} {b : Bool} (h : ∀ c ∈ a, ∀ b t, p b (c :: t) = false) :
    NoMatch p rest b a := by
  induction a generalizing b with
  | nil => trivial
  | cons c cs ih => exact ⟨h c (by simp) _ _, ih fun c hc => h c (by simp [hc])⟩

theorem lw_word {a : Text} (ha : a ≠ []) (h : ∀ c ∈ a, isWord c) (b : Bool) : lw b a = true := by
  induction a generalizing b with
  | nil => exact absurd rfl ha
  | cons c cs ih =>
    by_cases hc : cs = []
    · subst hc; exact h c (by simp)
    · exact ih hc (fun c hc => h c (by simp [hc])) _

/-- a word followed by something that is no word character -/
theorem prefix_word {u w rest : Text} (hu : ∀ c ∈ u, isWord c) (hw : ∀ c ∈ w, isWord c) (hr : ∀ c ∈ rest.head?, isWord c = false)
    (h : w ++ ['('] <+: u ++ rest) : w = u ∧ rest.head? = some '(' := by
  induction w generalizing u with
  | nil =>
    cases u with
    | nil =>
      obtain ⟨t, ht⟩ := h
      refine ⟨rfl, ?_⟩
      simp at ht
      rw [← ht]; rfl
    | cons c cs =>
      obtain ⟨t, ht⟩ := h
      simp at ht
      have := hu c (by simp)
      rw [← ht.1] at this
      exact absurd this (by decide)
  | cons x xs ih =>
    cases u with
    | nil =>
      obtain ⟨t, ht⟩ := h
      simp at ht
      have := hr x (by rw [← ht]; rfl)
      rw [hw x (by simp)] at this
      exact absurd this (by decide)
    | cons c cs =>
      rw [List.cons_append, List.cons_append] at h
      have h2 := List.cons_prefix_cons.mp h
      obtain ⟨e1, e2⟩ := ih (fun c hc => hu c (by simp [hc])) (fun c hc => hw c (by simp [hc])) h2.2
      exact ⟨by rw [h2.1, e1], e2⟩

theorem digit_word {c : Char} (h : isDigit c) : isWord c := by simp [isWord, h]

/-! ## Stages

Between the stages the text consists of parts or of text that is finished. -/

inductive Part
  | tok (t : Tok)
  | done (s : Text)

def Part.text : Part → Text
  | .tok t => t.text
  | .done s => s

def Part.isAtom : Part → Bool
  | .tok t => t.isAtom
  | .done _ => true

def Part.Ok : Part → Prop
  | .tok t => t.Ok
  | .done s => ∀ c ∈ s, c ≠ '$'

def ptext (ps : List Part) : Text := ps.flatMap Part.text

theorem ptext_tok (ts : List Tok) : ptext (ts.map .tok) = text ts := by
  simp [ptext, text, List.flatMap_map, Part.text]

/-- after a part that is a word or variable comes the end or another character -/
theorem head_sep {ts : List Tok} (h : ∀ t ∈ ts, t.Ok) (hs : ∀ t ∈ ts.head?, t.isAtom = false) :
    (∀ c ∈ (text ts).head?, isWord c = false) ∧ ((text ts).head? = some '(' → ts.head? = some (.sym '(')) := by
  cases ts with
  | nil => simp [text]
  | cons t ts =>
    have h1 := h t (by simp)
    have h2 := hs t (by simp)
    cases t with
    | var t ds => simp [Tok.isAtom] at h2
    | word w => simp [Tok.isAtom] at h2
    | comma =>
      refine ⟨?_, ?_⟩
      · intro c hc
        have : c = '\\' := by simpa [text, Tok.text] using hc.symm
        rw [this]; decide
      · intro hc
        have : '\\' = '(' := by simpa [text, Tok.text] using hc
        exact absurd this (by decide)
    | sym c =>
      refine ⟨?_, ?_⟩
      · intro d hd
        have : d = c := by simpa [text, Tok.text] using hd.symm
        rw [this]; exact h1.1
      · intro hc
        have : c = '(' := by simpa [text, Tok.text] using hc
        rw [this]; rfl

theorem Expr.tail {t : Tok} {ts : List Tok} (h : Expr (t :: ts)) : Expr ts :=
  ⟨fun x hx => h.ok x (by simp [hx]), by
    cases ts with
    | nil => trivial
    | cons y ys => exact h.sep.2⟩

theorem Expr.next {t : Tok} {ts : List Tok} (h : Expr (t :: ts)) (ht : t.isAtom) : ∀ x ∈ ts.head?, x.isAtom = false := by
  intro x hx
  cases ts with
  | nil => simp at hx
  | cons y ys =>
    simp at hx
    subst hx
    have := h.sep.1
    simpa [ht] using this

theorem text_cons (t : Tok) (ts : List Tok) : text (t :: ts) = t.text ++ text ts := by simp [text]

/-! ### escaped commas -/

def unescape : Tok → Tok
  | .comma => .sym ','
  | t => t

theorem unescape_expr {ts : List Tok} (h : Expr ts) : Expr (ts.map unescape) := by
  refine ⟨fun t ht => ?_, ?_⟩
  · obtain ⟨u, hu, rfl⟩ := List.mem_map.mp ht
    have := h.ok u hu
    cases u with
    | comma => exact ⟨by decide, by decide, by decide⟩
    | var t ds => exact this
    | word w => exact this
    | sym c => exact this
  · have e : ∀ t : Tok, (unescape t).isAtom = t.isAtom := fun t => by cases t <;> rfl
    have hs := h.sep
    clear h
    induction ts with
    | nil => trivial
    | cons x ts ih =>
      cases ts with
      | nil => trivial
      | cons y ys => exact ⟨by rw [e, e]; exact hs.1, ih hs.2⟩

theorem word_ne_backslash {c : Char} (h : isWord c) : c ≠ '\\' := by
  rintro rfl
  exact absurd h (by decide)

theorem replace_comma {ts : List Tok} (h : ∀ t ∈ ts, t.Ok) (b : Bool) :
    scan (fun _ t => List.isPrefixOf ['\\', ','] t) [','] 2 b 0 (text ts) = text (ts.map unescape) := by
  have key : ∀ c : Char, c ≠ '\\' → ∀ (b : Bool) (t : Text), (fun (_ : Bool) t => List.isPrefixOf ['\\', ','] t) b (c :: t) = false := by
    intro c hc b t
    simp only [List.isPrefixOf, Bool.and_eq_false_imp, beq_iff_eq]
    intro e
    exact absurd e.symm hc
  induction ts generalizing b with
  | nil => rfl
  | cons t ts ih =>
    have ih := ih fun x hx => h x (by simp [hx])
    rw [List.map_cons, text_cons, text_cons]
    have ht := h t (by simp)
    cases t with
    | comma =>
      have := scan_hit (p := fun _ t => List.isPrefixOf ['\\', ','] t) (r := [',']) (a := ['\\', ',']) (rest := text ts) (b := b)
        (by simp) (by simp [List.isPrefixOf])
      rw [show ['\\', ','].length = 2 from rfl] at this
      rw [show Tok.comma.text = ['\\', ','] from rfl, this, ih]
      rfl
    | var t ds =>
      rw [scan_pass _ (noMatch_of fun c hc => key c ?_), ih]
      · rfl
      · simp only [Tok.text, List.mem_cons] at hc
        rcases hc with rfl | rfl | hc
        · decide
        · rcases ht.1 with rfl | rfl <;> decide
        · exact word_ne_backslash (digit_word (ht.2.2 c hc))
    | word w =>
      rw [show (Tok.word w).text = w from rfl, scan_pass _ (noMatch_of fun c hc => key c (word_ne_backslash (ht.2 c hc))), ih]
      rfl
    | sym c =>
      rw [scan_pass _ (noMatch_of fun d hd => key d ?_), ih]
      · rfl
      · simp only [Tok.text, List.mem_singleton] at hd
        rw [hd]; exact ht.2.2

/-! ### function names -/

/-- a name that is replaced is a word and does not look like `f1` -/
structure Name (w : Text) : Prop where
  ne : w ≠ []
  word : ∀ c ∈ w, isWord c
  notVar : ∀ t ds, w = t :: ds → (t = 'f' ∨ t = 'i') → (∀ c ∈ ds, isDigit c) → ds = []

def renameTok (w r : Text) : List Tok → List Tok
  | [] => []
  | .word u :: ts => .word (if u = w ∧ ts.head? = some (.sym '(') then r else u) :: renameTok w r ts
  | t :: ts => t :: renameTok w r ts

theorem rename_head (w r : Text) (ts : List Tok) : ((renameTok w r ts).head? = some (.sym '(') ↔ ts.head? = some (.sym '(')) := by
  cases ts with
  | nil => simp [renameTok]
  | cons t ts => cases t <;> simp [renameTok]

theorem rename_expr {w r : Text} (hr : r ≠ [] ∧ ∀ c ∈ r, isWord c) {ts : List Tok} (h : Expr ts) : Expr (renameTok w r ts) := by
  induction ts with
  | nil => exact h
  | cons t ts ih =>
    have ih := ih h.tail
    have hat : ∀ t : Tok, ∀ ts, (renameTok w r (t :: ts)).head?.map Tok.isAtom = some t.isAtom := by
      intro t ts; cases t <;> rfl
    have hch : ∀ t' : Tok, t'.isAtom = t.isAtom → Expr (t' :: renameTok w r ts) ∨ ¬ t'.Ok := by
      intro t' e
      by_cases hok : t'.Ok
      · left
        refine ⟨fun x hx => ?_, ?_⟩
        · simp at hx
          rcases hx with rfl | hx
          · exact hok
          · exact ih.ok x hx
        · cases ts with
          | nil => trivial
          | cons y ys =>
            have h1 := h.sep
            have h2 := hat y ys
            have h3 := ih.sep
            generalize renameTok w r (y :: ys) = l at h2 h3 ⊢
            cases l with
            | nil => trivial
            | cons z zs =>
              simp at h2
              exact ⟨by rw [e, h2]; exact h1.1, h3⟩
      · exact Or.inr hok
    have ht := h.ok t (by simp)
    cases t with
    | var t ds => exact (hch (.var t ds) rfl).resolve_right (fun hn => hn ht)
    | comma => exact (hch .comma rfl).resolve_right (fun hn => hn ht)
    | sym c => exact (hch (.sym c) rfl).resolve_right (fun hn => hn ht)
    | word u =>
      rw [renameTok]
      refine (hch (.word (if u = w ∧ ts.head? = some (.sym '(') then r else u)) rfl).resolve_right (fun hn => hn ?_)
      split
      · exact hr
      · exact ht

theorem subWord_text {w r : Text} (hw : Name w) {ts : List Tok} (h : Expr ts) (b : Bool) (hb : ∀ t ∈ ts.head?, t.isAtom → b = false) :
    scan (fun b t => !b && (w ++ ['(']).isPrefixOf t) r w.length b 0 (text ts) = text (renameTok w r ts) := by
  have key : ∀ c : Char, isWord c = false → ∀ (b : Bool) (t : Text), (fun (b : Bool) t => !b && (w ++ ['(']).isPrefixOf t) b (c :: t) = false := by
    intro c hc b t
    simp only [Bool.and_eq_false_imp]
    intro _
    by_contra hne
    have := List.isPrefixOf_iff_prefix.mp (Bool.of_not_eq_false hne)
    cases w with
    | nil => exact hw.ne rfl
    | cons x xs =>
      rw [List.cons_append] at this
      have e := (List.cons_prefix_cons.mp this).1
      have := hw.word x (by simp)
      rw [e, hc] at this
      exact absurd this (by decide)
  have inner : ∀ (a rest : Text), (∀ c ∈ a, isWord c) → NoMatch (fun b t => !b && (w ++ ['(']).isPrefixOf t) rest true a := by
    intro a rest ha
    induction a with
    | nil => trivial
    | cons c cs ih =>
      refine ⟨by simp, ?_⟩
      rw [ha c (by simp)]
      exact ih fun c hc => ha c (by simp [hc])
  induction ts generalizing b with
  | nil => rfl
  | cons t ts ih =>
    have ht := h.ok t (by simp)
    rw [text_cons]
    cases t with
    | sym c =>
      have hk : ∀ d ∈ (Tok.sym c).text, isWord d = false := fun d hd => by
        simp only [Tok.text, List.mem_singleton] at hd
        rw [hd]; exact ht.1
      rw [scan_pass _ (noMatch_of fun d hd => key d (hk d hd)), ih h.tail (lw b (Tok.sym c).text) fun _ _ _ => ht.1]
      rw [renameTok, text_cons]
      simp
    | comma =>
      have hk : ∀ d ∈ Tok.comma.text, isWord d = false := by decide
      rw [scan_pass _ (noMatch_of fun d hd => key d (hk d hd)), ih h.tail (lw b Tok.comma.text) fun _ _ _ => rfl]
      rw [renameTok, text_cons]
      simp
    | var t ds =>
      have hsep := h.next rfl
      obtain ⟨hs1, hs2⟩ := head_sep h.tail.ok hsep
      have htw : isWord t := by rcases ht.1 with rfl | rfl <;> decide
      rw [scan_pass _ ?_, ih h.tail _ ?_]
      · rw [renameTok, text_cons]
        try simp
      · intro x hx hx2
        rw [hsep x hx] at hx2
        exact absurd hx2 (by decide)
      · refine ⟨key '$' (by decide) _ _, ?_, ?_⟩
        · simp only [Bool.and_eq_false_imp]
          intro _
          by_contra hne
          have hp := List.isPrefixOf_iff_prefix.mp (Bool.of_not_eq_false hne)
          rw [← List.cons_append] at hp
          have := (prefix_word (u := t :: ds) (by
            intro c hc
            simp at hc
            rcases hc with rfl | hc
            · exact htw
            · exact digit_word (ht.2.2 c hc)) hw.word hs1 hp).1
          exact ht.2.1 (hw.notVar t ds this ht.1 ht.2.2)
        · rw [htw]
          exact inner ds _ fun c hc => digit_word (ht.2.2 c hc)
    | word u =>
      have hsep := h.next rfl
      obtain ⟨hs1, hs2⟩ := head_sep h.tail.ok hsep
      have hbf : b = false := hb _ rfl rfl
      have hnext : ∀ t ∈ ts.head?, t.isAtom → lw b u = false := by
        intro x hx hx2
        rw [hsep x hx] at hx2
        exact absurd hx2 (by decide)
      by_cases hu : u = w ∧ ts.head? = some (.sym '(')
      · obtain ⟨rfl, hh⟩ := hu
        have hit : (fun (b : Bool) t => !b && (u ++ ['(']).isPrefixOf t) b (u ++ text ts) = true := by
          rw [hbf]
          simp only [Bool.not_false, Bool.true_and]
          rw [List.isPrefixOf_iff_prefix]
          cases ts with
          | nil => simp at hh
          | cons y ys =>
            simp at hh
            subst hh
            rw [text_cons]
            exact ⟨text ys, by simp [Tok.text]⟩
        rw [show (Tok.word u).text = u from rfl, scan_hit (p := fun b t => !b && (u ++ ['(']).isPrefixOf t) hw.ne hit, ih h.tail _ hnext]
        rw [renameTok, text_cons, if_pos ⟨rfl, hh⟩]
        rfl
      · rw [show (Tok.word u).text = u from rfl, scan_pass _ ?_, ih h.tail _ hnext]
        · rw [renameTok, text_cons, if_neg hu]
          rfl
        · show NoMatch _ _ b u
          have hu1 := ht.1
          have hu2 := ht.2
          cases u with
          | nil => exact absurd rfl hu1
          | cons c cs =>
            refine ⟨?_, ?_⟩
            · simp only [Bool.and_eq_false_imp]
              intro _
              by_contra hne
              have hp := List.isPrefixOf_iff_prefix.mp (Bool.of_not_eq_false hne)
              rw [← List.cons_append] at hp
              obtain ⟨e1, e2⟩ := prefix_word hu2 hw.word hs1 hp
              exact hu ⟨e1.symm, hs2 e2⟩
            · rw [hu2 c (by simp)]
              exact inner cs _ fun c hc => hu2 c (by simp [hc])

/-- all names in turn -/
def renameAll (l : List (Text × Text)) (ts : List Tok) : List Tok := l.foldl (fun ts x => renameTok x.1 x.2 ts) ts

theorem renameAll_text (l : List (Text × Text)) (hl : ∀ x ∈ l, Name x.1 ∧ x.2 ≠ [] ∧ ∀ c ∈ x.2, isWord c) {ts : List Tok} (h : Expr ts) :
    l.foldl (fun s x => subWord x.1 x.2 s) (text ts) = text (renameAll l ts) ∧ Expr (renameAll l ts) := by
  induction l generalizing ts with
  | nil => exact ⟨rfl, h⟩
  | cons x l ih =>
    have hx := hl x (by simp)
    have := ih (fun y hy => hl y (by simp [hy])) (rename_expr (w := x.1) hx.2 h)
    unfold renameAll at this ⊢
    rw [List.foldl_cons, List.foldl_cons]
    rw [show subWord x.1 x.2 (text ts) = text (renameTok x.1 x.2 ts) from subWord_text hx.1 h false fun _ _ _ => rfl]
    exact this

/-- a word after all renamings -/
def renamed (l : List (Text × Text)) (u : Text) : Text := l.foldl (fun u x => if u = x.1 then x.2 else u) u

theorem renameAll_cons (l : List (Text × Text)) (t : Tok) (ts : List Tok) :
    renameAll l (t :: ts) = (match t with | .word u => .word (if ts.head? = some (.sym '(') then renamed l u else u) | t => t) :: renameAll l ts := by
  induction l generalizing t ts with
  | nil => cases t <;> simp [renameAll, renamed]
  | cons x l ih =>
    unfold renameAll at ih ⊢
    rw [List.foldl_cons, List.foldl_cons]
    cases t with
    | word u =>
      rw [renameTok, ih]
      simp only [rename_head]
      by_cases hh : ts.head? = some (.sym '(') <;> simp [hh, renamed]
    | var t ds => rw [renameTok, ih]; simp
    | comma => rw [renameTok, ih]; simp
    | sym c => rw [renameTok, ih]; simp

/-! ### variables -/

/-- the variables whose text is `v` are finished -/
def bindPart (v r : Text) : Part → Part
  | .tok (.var t ds) => if '$' :: t :: ds = v then .done r else .tok (.var t ds)
  | p => p

def PSep : List Part → Prop
  | x :: y :: ps => ¬ (x.isAtom ∧ y.isAtom) ∧ PSep (y :: ps)
  | _ => True

structure PExpr (ps : List Part) : Prop where
  ok : ∀ p ∈ ps, p.Ok
  sep : PSep ps

theorem PExpr.tail {p : Part} {ps : List Part} (h : PExpr (p :: ps)) : PExpr ps :=
  ⟨fun x hx => h.ok x (by simp [hx]), by
    cases ps with
    | nil => trivial
    | cons y ys => exact h.sep.2⟩

/-- after an atom comes the end or a character that is no digit -/
theorem phead_sep {p : Part} {ps : List Part} (h : PExpr (p :: ps)) (hp : p.isAtom) : ∀ c ∈ (ptext ps).head?, isWord c = false := by
  cases ps with
  | nil => simp [ptext]
  | cons q ps =>
    have h1 : q.isAtom = false := by
      have := h.sep.1
      simpa [hp] using this
    have h2 := h.ok q (by simp)
    cases q with
    | done s => simp [Part.isAtom] at h1
    | tok t =>
      cases t with
      | var t ds => simp [Part.isAtom, Tok.isAtom] at h1
      | word w => simp [Part.isAtom, Tok.isAtom] at h1
      | comma =>
        intro c hc
        have : c = '\\' := by simpa [ptext, Part.text, Tok.text] using hc.symm
        rw [this]; decide
      | sym d =>
        intro c hc
        have : c = d := by simpa [ptext, Part.text, Tok.text] using hc.symm
        rw [this]; exact h2.1

/-- the text of a variable -/
structure IsVar (v : Text) : Prop where
  is : ∃ t ds, v = '$' :: t :: ds ∧ (t = 'f' ∨ t = 'i') ∧ ds ≠ [] ∧ ∀ c ∈ ds, isDigit c

theorem digits_prefix {a b rest : Text} (ha : ∀ c ∈ a, isDigit c) (hr : ∀ c ∈ rest.head?, isWord c = false) (h : a <+: b ++ rest) :
    a <+: b := by
  induction a generalizing b with
  | nil => exact List.nil_prefix
  | cons x xs ih =>
    cases b with
    | nil =>
      rw [List.nil_append] at h
      obtain ⟨t, ht⟩ := h
      have := hr x (by rw [← ht]; rfl)
      rw [digit_word (ha x (by simp))] at this
      exact absurd this (by decide)
    | cons y ys =>
      rw [List.cons_append] at h
      have := List.cons_prefix_cons.mp h
      exact List.cons_prefix_cons.mpr ⟨this.1, ih (fun c hc => ha c (by simp [hc])) this.2⟩

theorem ptext_cons (p : Part) (ps : List Part) : ptext (p :: ps) = p.text ++ ptext ps := by simp [ptext]

theorem replace_var {v r : Text} (hv : IsVar v) {ps : List Part} (h : PExpr ps)
    (hlong : ∀ t ds, Part.tok (.var t ds) ∈ ps → v <+: '$' :: t :: ds → '$' :: t :: ds = v) (b : Bool) :
    scan (fun _ t => v.isPrefixOf t) r v.length b 0 (ptext ps) = ptext (ps.map (bindPart v r)) := by
  have key : ∀ c : Char, c ≠ '$' → ∀ (b : Bool) (t : Text), (fun (_ : Bool) t => v.isPrefixOf t) b (c :: t) = false := by
    intro c hc b t
    obtain ⟨t', ds, rfl, _⟩ := hv.is
    simp only [List.isPrefixOf, Bool.and_eq_false_imp, beq_iff_eq]
    intro e
    exact absurd e.symm hc
  have wkey : ∀ c : Char, isWord c → c ≠ '$' := by
    rintro c h rfl
    exact absurd h (by decide)
  induction ps generalizing b with
  | nil => rfl
  | cons p ps ih =>
    have ih := ih h.tail fun t ds hm => hlong t ds (by simp [hm])
    have hp := h.ok p (by simp)
    rw [List.map_cons, ptext_cons, ptext_cons]
    match p, hp with
    | .done s, hp =>
      rw [show (Part.done s).text = s from rfl, scan_pass _ (noMatch_of fun c hc => key c (hp c hc)), ih]
      rfl
    | .tok (.word w), hp =>
      rw [show (Part.tok (.word w)).text = w from rfl, scan_pass _ (noMatch_of fun c hc => key c (wkey c (hp.2 c hc))), ih]
      rfl
    | .tok .comma, hp =>
      have hk : ∀ c ∈ Tok.comma.text, c ≠ '$' := by decide
      rw [show (Part.tok .comma).text = Tok.comma.text from rfl, scan_pass _ (noMatch_of fun c hc => key c (hk c hc)), ih]
      rfl
    | .tok (.sym c), hp =>
      have hk : ∀ d ∈ (Tok.sym c).text, d ≠ '$' := fun d hd => by
        simp only [Tok.text, List.mem_singleton] at hd
        rw [hd]; exact hp.2.1
      rw [show (Part.tok (.sym c)).text = (Tok.sym c).text from rfl, scan_pass _ (noMatch_of fun c hc => key c (hk c hc)), ih]
      rfl
    | .tok (.var t ds), hp =>
      by_cases e : '$' :: t :: ds = v
      · have hit : (fun (_ : Bool) t => v.isPrefixOf t) b (v ++ ptext ps) = true := by
          simp
        rw [show (Part.tok (.var t ds)).text = '$' :: t :: ds from rfl, e]
        rw [scan_hit (p := fun _ t => v.isPrefixOf t) (by rw [← e]; simp) hit, ih]
        rw [bindPart, if_pos e]
        rfl
      · have hno : NoMatch (fun _ t => v.isPrefixOf t) (ptext ps) b ('$' :: t :: ds) := by
          refine ⟨?_, noMatch_of fun c hc => key c ?_⟩
          · by_contra hne
            have hpre := List.isPrefixOf_iff_prefix.mp (Bool.of_not_eq_false hne)
            obtain ⟨t', ds', rfl, h1, h2, h3⟩ := hv.is
            have p1 := (List.cons_prefix_cons.mp hpre).2
            rw [List.cons_append] at p1
            have p2 := List.cons_prefix_cons.mp p1
            have p3 := digits_prefix h3 (phead_sep h rfl) p2.2
            exact e (hlong t ds (by simp) (List.cons_prefix_cons.mpr ⟨rfl, List.cons_prefix_cons.mpr ⟨p2.1, p3⟩⟩))
          · simp at hc
            rcases hc with rfl | hc
            · rcases hp.1 with rfl | rfl <;> decide
            · exact wkey c (digit_word (hp.2.2 c hc))
        rw [show (Part.tok (.var t ds)).text = '$' :: t :: ds from rfl, scan_pass _ hno, ih]
        rw [bindPart, if_neg e]
        rfl

theorem bind_expr {v r : Text} (hr : ∀ c ∈ r, c ≠ '$') {ps : List Part} (h : PExpr ps) : PExpr (ps.map (bindPart v r)) := by
  have ha : ∀ p, (bindPart v r p).isAtom = p.isAtom := by
    intro p
    match p with
    | .done s => rfl
    | .tok (.word w) => rfl
    | .tok .comma => rfl
    | .tok (.sym c) => rfl
    | .tok (.var t ds) =>
      rw [bindPart]
      split <;> rfl
  refine ⟨fun p hp => ?_, ?_⟩
  · obtain ⟨q, hq, rfl⟩ := List.mem_map.mp hp
    have := h.ok q hq
    match q, this with
    | .done s, this => exact this
    | .tok (.word w), this => exact this
    | .tok .comma, this => exact this
    | .tok (.sym c), this => exact this
    | .tok (.var t ds), this =>
      rw [bindPart]
      split
      · exact hr
      · exact this
  · have hs := h.sep
    clear h
    induction ps with
    | nil => trivial
    | cons x ps ih =>
      cases ps with
      | nil => trivial
      | cons y ys => exact ⟨by rw [ha, ha]; exact hs.1, ih hs.2⟩

theorem strLe_prefix {u v : Text} (h : v <+: u) (hne : u ≠ v) : strLe u v = false := by
  induction v generalizing u with
  | nil =>
    cases u with
    | nil => exact absurd rfl hne
    | cons _ _ => rfl
  | cons x xs ih =>
    cases u with
    | nil => simp at h
    | cons y ys =>
      have := List.cons_prefix_cons.mp h
      rw [strLe, if_pos this.1.symm]
      exact ih this.2 fun e => hne (by rw [this.1, e])

/-- the value of a variable -/
def varText (a : Text) (t : Char) (ds : Text) : Text :=
  "((".toList ++ cType t ++ ")(".toList ++ a ++ "[".toList ++ decPred (number ds) ++ "]))".toList

theorem varN_eq (a : Text) {t : Char} {ds : Text} (ht : t = 'f' ∨ t = 'i') : varN a ('$' :: t :: ds) = some (varText a t ds) := by
  rcases ht with rfl | rfl <;> simp [varN, varText, cType]

/-- everything finished -/
def finish (a : Text) : Part → Text
  | .tok (.var t ds) => varText a t ds
  | p => p.text

theorem bindAll_text (a : Text) (ha : ∀ v t ds, v = '$' :: t :: ds → IsVar v → ∀ c ∈ varText a t ds, c ≠ '$') (vs : List Text)
    (hvs : ∀ v ∈ vs, IsVar v) (hsort : vs.Pairwise fun x y => strLe y x) {ps : List Part} (h : PExpr ps)
    (hmem : ∀ t ds, Part.tok (.var t ds) ∈ ps → '$' :: t :: ds ∈ vs) :
    bindAll a vs (ptext ps) = some (ps.flatMap (finish a)) := by
  induction vs generalizing ps with
  | nil =>
    rw [bindAll]
    congr 1
    unfold ptext
    refine List.flatMap_congr fun p hp => ?_
    match p, hp with
    | .done s, _ => rfl
    | .tok (.word w), _ => rfl
    | .tok .comma, _ => rfl
    | .tok (.sym c), _ => rfl
    | .tok (.var t ds), hp => exact absurd (hmem t ds hp) (by simp)
  | cons v vs ih =>
    rw [List.pairwise_cons] at hsort
    have hv := hvs v (by simp)
    obtain ⟨t, ds, e, h1, h2, h3⟩ := hv.is
    rw [bindAll, e, varN_eq a h1, ← e]
    simp only
    have hr := replace_var (r := varText a t ds) hv h (fun t' ds' hm hp => by
      by_contra hne
      rcases List.mem_cons.mp (hmem t' ds' hm) with k | k
      · exact hne k
      · have := hsort.1 _ k
        rw [strLe_prefix hp hne] at this
        exact absurd this (by decide)) false
    unfold replace
    rw [hr, ih (fun v hv => hvs v (by simp [hv])) hsort.2 (bind_expr (ha v t ds e hv) h) ?_]
    · congr 1
      rw [List.flatMap_map]
      refine List.flatMap_congr fun p hp => ?_
      match p, hp with
      | .done s, _ => rfl
      | .tok (.word w), _ => rfl
      | .tok .comma, _ => rfl
      | .tok (.sym c), _ => rfl
      | .tok (.var t' ds'), hp =>
        rw [bindPart]
        split
        · rename_i e'
          rw [e] at e'
          injection e' with _ e'
          injection e' with e1 e2
          rw [e1, e2]
          rfl
        · rfl
    · intro t' ds' hm
      obtain ⟨q, hq, hq2⟩ := List.mem_map.mp hm
      match q, hq with
      | .done s, _ => simp [bindPart] at hq2
      | .tok (.word w), _ => simp [bindPart] at hq2
      | .tok .comma, _ => simp [bindPart] at hq2
      | .tok (.sym c), _ => simp [bindPart] at hq2
      | .tok (.var t2 ds2), hq =>
        rw [bindPart] at hq2
        split at hq2
        · simp at hq2
        · rename_i hne
          simp only [Part.tok.injEq, Tok.var.injEq] at hq2
          obtain ⟨rfl, rfl⟩ := hq2
          exact (List.mem_cons.mp (hmem _ _ hq)).resolve_left hne

/-! ### all together -/

theorem names_ok : ∀ x ∈ names, x.1 ≠ [] ∧ (∀ c ∈ x.1, isWord c) ∧ (x.1.tail.head?.any isDigit) = false ∧ x.2 ≠ [] ∧ (∀ c ∈ x.2, isWord c) := by
  decide +kernel

theorem names_sep : ∀ x ∈ names, ∀ y ∈ names, x.2 ≠ y.1 := by decide +kernel

theorem names_name : ∀ x ∈ names, Name x.1 ∧ x.2 ≠ [] ∧ ∀ c ∈ x.2, isWord c := by
  intro x hx
  obtain ⟨h1, h2, h3, h4, h5⟩ := names_ok x hx
  refine ⟨⟨h1, h2, fun t ds e _ hd => ?_⟩, h4, h5⟩
  cases ds with
  | nil => rfl
  | cons d ds =>
    rw [e] at h3
    simp only [List.tail_cons, List.head?_cons, Option.any_some] at h3
    rw [hd d (by simp)] at h3
    exact absurd h3 (by decide)

theorem renamed_of_not {l : List (Text × Text)} {u : Text} (h : ∀ y ∈ l, u ≠ y.1) : renamed l u = u := by
  induction l with
  | nil => rfl
  | cons x l ih =>
    unfold renamed at ih ⊢
    rw [List.foldl_cons, if_neg (h x (by simp))]
    exact ih fun y hy => h y (by simp [hy])

theorem renamed_eq (l : List (Text × Text)) (h : ∀ x ∈ l, ∀ y ∈ l, x.2 ≠ y.1) (u : Text) :
    renamed l u = match l.find? fun x => x.1 = u with | some x => x.2 | none => u := by
  induction l with
  | nil => rfl
  | cons x l ih =>
    have ih := ih fun y hy z hz => h y (by simp [hy]) z (by simp [hz])
    by_cases e : x.1 = u
    · have h1 : List.find? (fun x => decide (x.1 = u)) (x :: l) = some x := by simp [List.find?_cons, e]
      rw [h1]
      show renamed (x :: l) u = x.2
      have h2 : renamed (x :: l) u = renamed l (if u = x.1 then x.2 else u) := rfl
      rw [h2, if_pos e.symm]
      exact renamed_of_not fun y hy => h x (by simp) y (by simp [hy])
    · have h1 : List.find? (fun x => decide (x.1 = u)) (x :: l) = List.find? (fun x => decide (x.1 = u)) l := by
        simp [List.find?_cons, e]
      rw [h1, ← ih]
      have h2 : renamed (x :: l) u = renamed l (if u = x.1 then x.2 else u) := rfl
      rw [h2, if_neg fun e' => e e'.symm]

theorem varAt_ne {c : Char} (h : c ≠ '$') (cs : Text) : varAt (c :: cs) = [] := by
  unfold varAt
  split
  · rename_i e
    injection e with e1 _
    exact absurd e1 h
  · rfl

theorem findVars_pass (a rest : Text) (h : ∀ c ∈ a, c ≠ '$') : findVars (a ++ rest) = findVars rest := by
  induction a with
  | nil => rfl
  | cons c cs ih =>
    rw [List.cons_append, findVars, varAt_ne (h c (by simp)), List.nil_append]
    exact ih fun c hc => h c (by simp [hc])

theorem takeWhile_digits {ds rest : Text} (h : ∀ c ∈ ds, isDigit c) (hr : ∀ c ∈ rest.head?, isWord c = false) :
    (ds ++ rest).takeWhile isDigit = ds := by
  induction ds with
  | nil =>
    cases rest with
    | nil => rfl
    | cons c cs =>
      have := hr c (by simp)
      have hd : isDigit c = false := by
        by_contra hne
        rw [digit_word (by simpa using hne)] at this
        exact absurd this (by decide)
      simp [List.takeWhile_cons, hd]
  | cons c cs ih =>
    rw [List.cons_append, List.takeWhile_cons, h c (by simp)]
    simp only [if_true]
    rw [ih fun c hc => h c (by simp [hc])]

/-- the text of a variable -/
def varOf : Tok → List Text
  | .var t ds => ['$' :: t :: ds]
  | _ => []

theorem findVars_text {ts : List Tok} (h : Expr ts) : findVars (text ts) = ts.flatMap varOf := by
  induction ts with
  | nil => rfl
  | cons t ts ih =>
    have ih := ih h.tail
    have ht := h.ok t (by simp)
    rw [text_cons, List.flatMap_cons]
    cases t with
    | word w =>
      rw [show (Tok.word w).text = w from rfl, findVars_pass _ _ (fun c hc => ?_), ih]
      · rfl
      · rintro rfl
        exact absurd (ht.2 _ hc) (by decide)
    | comma =>
      rw [findVars_pass _ _ (by decide), ih]
      rfl
    | sym c =>
      rw [findVars_pass _ _ (fun d hd => ?_), ih]
      · rfl
      · simp only [Tok.text, List.mem_singleton] at hd
        rw [hd]; exact ht.2.1
    | var t ds =>
      obtain ⟨h1, h2, h3⟩ := ht
      obtain ⟨hs1, hs2⟩ := head_sep h.tail.ok (h.next rfl)
      cases ds with
      | nil => exact absurd rfl h2
      | cons d ds =>
        have e1 : varAt ('$' :: t :: d :: (ds ++ text ts)) = ['$' :: t :: d :: ds] := by
          rw [varAt, takeWhile_digits (fun c hc => h3 c (by simp [hc])) hs1]
          rw [if_pos ⟨by rcases h1 with h | h <;> simp [h], h3 d (by simp)⟩]
        have e2 : findVars (t :: d :: (ds ++ text ts)) = findVars (text ts) := by
          have := findVars_pass (t :: d :: ds) (text ts) (fun c hc => by
            rintro rfl
            simp only [List.mem_cons] at hc
            rcases hc with hc | hc
            · rcases h1 with h | h <;> rw [h] at hc <;> exact absurd hc (by decide)
            · have := h3 '$' (by simpa using hc)
              exact absurd this (by decide))
          simpa using this
        show findVars ('$' :: t :: d :: (ds ++ text ts)) = _
        rw [findVars, e1, e2, ih]
        rfl

/-- the digits of a number are read back as that number -/
theorem number_dec (n : Nat) : number (dec n) = n := by
  have digit : ∀ k < 10, (Char.ofNat (48 + k)).toNat - 48 = k := by decide
  induction n using Nat.strongRecOn with
  | ind n ih =>
    rw [dec]
    by_cases h : n < 10
    · rw [if_pos h]
      simp [number, digit n h]
    · rw [if_neg h]
      have := ih (n / 10) (by omega)
      unfold number at this ⊢
      rw [List.foldl_append, this]
      simp only [List.foldl_cons, List.foldl_nil]
      rw [digit (n % 10) (by omega)]
      omega

theorem dec_digits (n : Nat) : ∀ c ∈ dec n, isDigit c := by
  have key : ∀ k < 10, isDigit (Char.ofNat (48 + k)) := by decide
  induction n using Nat.strong_induction_on with
  | _ n ih =>
    rw [dec]
    split
    · intro c hc
      simp at hc
      rw [hc]
      exact key n (by assumption)
    · intro c hc
      rcases List.mem_append.mp hc with hc | hc
      · exact ih (n / 10) (by omega) c hc
      · simp at hc
        rw [hc]
        exact key _ (Nat.mod_lt _ (by decide))

theorem varText_no_dollar (a : Text) (ha : ∀ c ∈ a, c ≠ '$') (t : Char) (ds : Text) : ∀ c ∈ varText a t ds, c ≠ '$' := by
  have k1 : ∀ c ∈ "((".toList, c ≠ '$' := by decide +kernel
  have k2 : ∀ c ∈ cType t, c ≠ '$' := by
    unfold cType
    split
    · decide +kernel
    · decide +kernel
  have k3 : ∀ c ∈ ")(".toList, c ≠ '$' := by decide +kernel
  have k4 : ∀ c ∈ "[".toList, c ≠ '$' := by decide +kernel
  have k5 : ∀ c ∈ "]))".toList, c ≠ '$' := by decide +kernel
  have k6 : ∀ c ∈ decPred (number ds), c ≠ '$' := by
    generalize number ds = n
    cases n with
    | zero => decide
    | succ n =>
      rintro c hc rfl
      exact absurd (dec_digits n _ hc) (by decide)
  intro c hc
  unfold varText at hc
  simp only [List.mem_append] at hc
  rcases hc with (((((hc | hc) | hc) | hc) | hc) | hc) | hc
  · exact k1 c hc
  · exact k2 c hc
  · exact k3 c hc
  · exact ha c hc
  · exact k4 c hc
  · exact k6 c hc
  · exact k5 c hc

theorem render_eq (a : Text) (ts : List Tok) :
    ((renameAll names (ts.map unescape)).map Part.tok).flatMap (finish a) = render a ts := by
  induction ts with
  | nil =>
    have : ∀ l, renameAll l [] = [] := by
      intro l
      induction l with
      | nil => rfl
      | cons x l ih => exact ih
    rw [List.map_nil, this]
    rfl
  | cons t ts ih =>
    rw [List.map_cons, renameAll_cons, List.map_cons, List.flatMap_cons, ih]
    have hh : ((ts.map unescape).head? = some (.sym '(') ↔ ts.head? = some (.sym '(')) := by
      cases ts with
      | nil => simp
      | cons y ys => cases y <;> simp [unescape]
    cases t with
    | var t ds => rfl
    | comma => rfl
    | sym c => rfl
    | word w =>
      show (if (ts.map unescape).head? = some (.sym '(') then renamed names w else w) ++ render a ts = _
      simp only [hh]
      rw [render, renamed_eq names names_sep w]
      rfl

/-- **C40**: the C text of an expression has `((float)(args[N-1]))` for every `$fN`, `((int)(args[N-1]))` for every `$iN`, the C
names for functions and `,` for escaped commas, and everything else as it was, whatever variables occur.  (`a`: the name of the
array, without `$`.) -/
theorem bindExpr_correct (ts : List Tok) (h : Expr ts) (a : Text) (ha : ∀ c ∈ a, c ≠ '$') :
    bindExpr (text ts) a = some (render a ts) := by
  unfold bindExpr internalExpr
  rw [show replace ['\\', ','] [','] (text ts) = text (ts.map unescape) from replace_comma h.ok false]
  obtain ⟨e1, e2⟩ := renameAll_text names names_name (unescape_expr h)
  rw [e1, findVars_text h, ← ptext_tok, ← render_eq]
  have hvars : ∀ (l : List (Text × Text)) (ts : List Tok) (t : Char) (ds : Text), Tok.var t ds ∈ renameAll l ts → Tok.var t ds ∈ ts := by
    intro l ts t ds hm
    induction ts with
    | nil =>
      have : ∀ l, renameAll l [] = [] := by
        intro l
        induction l with
        | nil => rfl
        | cons x l ih => exact ih
      rw [this] at hm
      simp at hm
    | cons x ts ih =>
      rw [renameAll_cons] at hm
      rcases List.mem_cons.mp hm with hm | hm
      · cases x with
        | var t' ds' => simp at hm; simp [hm]
        | word w => simp at hm
        | comma => simp at hm
        | sym c => simp at hm
      · exact List.mem_cons_of_mem _ (ih hm)
  generalize hus : renameAll names (ts.map unescape) = us at e2 ⊢
  clear e1
  refine bindAll_text a (fun v t ds _ _ => varText_no_dollar a ha t ds) _ (fun v hv => ?_) ?_ ⟨fun p hp => ?_, ?_⟩ fun t ds hm => ?_
  · have := (List.mergeSort_perm _ _).mem_iff.mp hv
    obtain ⟨t, ht, hv2⟩ := List.mem_flatMap.mp this
    have hok := h.ok t ht
    cases t with
    | var t ds =>
      simp [varOf] at hv2
      exact ⟨t, ds, hv2, hok⟩
    | word w => simp [varOf] at hv2
    | comma => simp [varOf] at hv2
    | sym c => simp [varOf] at hv2
  · unfold sortRev
    refine List.pairwise_mergeSort ?_ ?_ _
    · intro x y z
      revert y z
      induction x with
      | nil =>
        intro y z h1 h2
        cases y with
        | nil => exact h2
        | cons b bs => simp [strLe] at h1
      | cons c cs ih =>
        intro y z h1 h2
        cases y with
        | nil =>
          cases z with
          | nil => rfl
          | cons d ds => simp [strLe] at h2
        | cons b bs =>
          cases z with
          | nil => rfl
          | cons d ds =>
            simp only [strLe] at h1 h2 ⊢
            by_cases e1 : b = c
            · subst e1
              simp only [if_true] at h1
              by_cases e2 : d = b
              · subst e2
                simp only [if_true] at h2 ⊢
                exact ih bs ds h1 h2
              · rw [if_neg e2] at h2 ⊢
                exact h2
            · rw [if_neg e1] at h1
              by_cases e2 : d = b
              · subst e2
                rw [if_neg e1]
                exact h1
              · rw [if_neg e2] at h2
                simp at h1 h2
                by_cases e3 : d = c
                · subst e3; omega
                · rw [if_neg e3]
                  simp
                  omega
    · intro x y
      revert y
      induction x with
      | nil => intro y; cases y <;> simp [strLe]
      | cons c cs ih =>
        intro y
        cases y with
        | nil => simp [strLe]
        | cons b bs =>
          simp only [strLe]
          by_cases e : b = c
          · subst e
            simpa using ih bs
          · have e' : ¬ c = b := fun h => e h.symm
            rw [if_neg e, if_neg e']
            have : b.toNat ≠ c.toNat := fun h => e (Char.toNat_inj.mp h)
            simp
            omega
  · obtain ⟨t, ht, rfl⟩ := List.mem_map.mp hp
    exact e2.ok t ht
  · have hs := e2.sep
    clear e2 hus
    induction us with
    | nil => trivial
    | cons x us ih =>
      cases us with
      | nil => trivial
      | cons y ys => exact ⟨hs.1, ih hs.2⟩
  · refine (List.mergeSort_perm _ _).mem_iff.mpr ?_
    obtain ⟨u, hu, e⟩ := List.mem_map.mp hm
    simp only [Part.tok.injEq] at e
    subst e
    obtain ⟨w, hw, e⟩ := List.mem_map.mp (hvars names (ts.map unescape) t ds (by rw [hus]; exact hu))
    refine List.mem_flatMap.mpr ⟨w, hw, ?_⟩
    cases w with
    | var t' ds' =>
      simp [unescape] at e
      obtain ⟨rfl, rfl⟩ := e
      simp [varOf]
    | word w => simp [unescape] at e
    | comma => simp [unescape] at e
    | sym c => simp [unescape] at e

/-! ### an example -/

/-- `abs($f1)+$f11*$i2` -/
def sample : List Tok := [.word "abs".toList, .sym '(', .var 'f' ['1'], .sym ')', .sym '+', .var 'f' ['1', '1'], .sym '*', .var 'i' ['2']]

example : Expr sample := by
  refine ⟨?_, ?_⟩
  · intro t ht
    simp only [sample, List.mem_cons, List.not_mem_nil, or_false] at ht
    rcases ht with rfl | rfl | rfl | rfl | rfl | rfl | rfl | rfl
    · exact ⟨by decide +kernel, by decide +kernel⟩
    · exact ⟨by decide, by decide, by decide⟩
    · exact ⟨Or.inl rfl, by decide, by decide⟩
    · exact ⟨by decide, by decide, by decide⟩
    · exact ⟨by decide, by decide, by decide⟩
    · exact ⟨Or.inl rfl, by decide, by decide⟩
    · exact ⟨by decide, by decide, by decide⟩
    · exact ⟨Or.inr rfl, by decide, by decide⟩
  · simp [sample, Sep, Tok.isAtom]

example : render "args".toList sample = "hv_abs_f(((float)(args[0])))+((float)(args[10]))*((int)(args[1]))".toList := by decide +kernel

/-- a string variable stops the compiler -/
example : bindExpr "$s1".toList "args".toList = none := by decide +kernel

end Verif.ControlExpr
