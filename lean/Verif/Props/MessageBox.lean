import Verif.MessageBox
import Verif.Props.Message
import Verif.Props.ControlExpr
/-!
C47: specification and proofs.
-/
namespace Verif.MessageBox
open Verif.Msg (R Err Val IsMsg)
open Verif.Mem
open Verif.PdText (Text consHead isDigit)
open Verif.ControlExpr (dec number number_dec)

/-! ## Specification -/

/-- an element of a message box -/
inductive Elem
  | num (w : Text) (f : BitVec 32)
  | bang
  | arg (k : Nat)
  | name (w : Text)

/-- as the user sees it -/
def Elem.text : Elem → Text
  | .num w _ => w
  | .bang => "bang".toList
  | .arg k => '$' :: dec k
  | .name w => w

/-- as it is saved: Pd puts a backslash in front of a dollar sign -/
def Elem.saved : Elem → Text
  | .arg k => '\\' :: '$' :: dec k
  | e => e.text

/-- a text without white space, dollar signs and backslashes -/
def Plain (w : Text) : Prop := w ≠ [] ∧ ∀ c ∈ w, isSpace c = false ∧ c ≠ '$' ∧ c ≠ '\\'

/-- numbers are what Python's `float` accepts; names are everything else but `bang` (and the special name `@HV_N_SIMD`) -/
def Elem.Ok (num : Text → Option (BitVec 32)) : Elem → Prop
  | .num w f => Plain w ∧ num w = some f
  | .bang => True
  | .arg _ => True
  | .name w => Plain w ∧ num w = none ∧ w ≠ "bang".toList ∧ w ≠ "@HV_N_SIMD".toList

/-- about Python's `float`: these are no numbers -/
def PyFloat (num : Text → Option (BitVec 32)) : Prop := num "bang".toList = none ∧ ∀ t, num ('$' :: t) = none

/-- the value of an element when the box receives `vs`; `enc`: the bytes of a text -/
def Elem.val (enc : Text → List Byte) (vs : List Val) : Elem → Option Val
  | .num _ f => some (.float f)
  | .bang => some .bang
  | .arg k => if k = 0 then none else vs[k - 1]?
  | .name w => some (.sym (enc w))

/-- messages with commas between them -/
def commas : List (List Text) → Text
  | [] => []
  | [ws] => joinSpace ws
  | ws :: ms => joinSpace ws ++ " \\, ".toList ++ commas ms

/-- messages to receivers, each behind a semicolon -/
def semis : List (Text × List (List Text)) → Text
  | [] => []
  | (r, ms) :: rs => " \\; ".toList ++ r ++ ' ' :: commas ms ++ semis rs

/-- the words of messages -/
def shown (ms : List (List Elem)) : List (List Text) := ms.map (·.map Elem.text)

/-- the text of a box with the messages `ms` and messages to receivers, as it is saved -/
def boxText (ms : List (List Elem)) (rs : List (Text × List (List Elem))) : Text :=
  commas (ms.map (·.map Elem.saved)) ++ semis (rs.map fun r => (r.1, r.2.map (·.map Elem.saved)))

/-! ## Words and separators -/

/-- put a text in front of the first text -/
def preHead (u : Text) : List Text → List Text
  | [] => [u]
  | t :: ts => (u ++ t) :: ts

theorem consHead_preHead (c : Char) (u : Text) (l : List Text) : consHead c (preHead u l) = preHead (c :: u) l := by
  cases l <;> rfl

theorem splitEsc_ne (e : Char) (t : Text) : splitEsc e t ≠ [] := by
  fun_induction splitEsc e t <;> simp_all [consHead]
  split <;> simp_all

/-- a text in which no backslash is followed by `e`, and which does not end in a backslash -/
inductive Free (e : Char) : Text → Prop
  | nil : Free e []
  | char {c : Char} {t : Text} : c ≠ '\\' → Free e t → Free e (c :: t)
  | esc {c : Char} {t : Text} : c ≠ e → c ≠ '\\' → Free e t → Free e ('\\' :: c :: t)

theorem splitEsc_cons {e c : Char} (hc : c ≠ '\\') (t : Text) : splitEsc e (c :: t) = consHead c (splitEsc e t) := by
  cases t with
  | nil => rfl
  | cons d t =>
    rw [splitEsc, if_neg (by simp [hc])]

theorem splitEsc_free {e : Char} {u : Text} (hu : Free e u) (v : Text) : splitEsc e (u ++ v) = preHead u (splitEsc e v) := by
  induction hu with
  | nil =>
    have := splitEsc_ne e v
    cases h : splitEsc e v with
    | nil => exact absurd h this
    | cons t ts => simp [preHead, h]
  | char hc _ ih => rw [List.cons_append, splitEsc_cons hc, ih, consHead_preHead]
  | @esc c t h1 h2 _ ih =>
    rw [List.cons_append, List.cons_append, splitEsc, if_neg (by simp [h1]), splitEsc_cons h2, ih, consHead_preHead, consHead_preHead]

theorem splitEsc_sep {e : Char} {u : Text} (hu : Free e u) (v : Text) : splitEsc e (u ++ '\\' :: e :: v) = u :: splitEsc e v := by
  rw [splitEsc_free hu, splitEsc, if_pos ⟨rfl, rfl⟩]
  simp [preHead]

theorem splitEsc_all {e : Char} {u : Text} (hu : Free e u) : splitEsc e u = [u] := by
  have := splitEsc_free hu []
  simpa [splitEsc, preHead] using this

theorem Free.append {e : Char} {u v : Text} (hu : Free e u) (hv : Free e v) : Free e (u ++ v) := by
  induction hu with
  | nil => exact hv
  | char h _ ih => exact .char h ih
  | esc h1 h2 _ ih => exact .esc h1 h2 ih

theorem free_of {e : Char} {u : Text} (h : ∀ c ∈ u, c ≠ '\\') : Free e u := by
  induction u with
  | nil => exact .nil
  | cons c u ih => exact .char (h c (by simp)) (ih fun d hd => h d (by simp [hd]))

theorem wordsFrom_word {w : Text} (acc : Text) (h : ∀ c ∈ w, isSpace c = false) (t : Text) :
    wordsFrom acc (w ++ t) = wordsFrom (w.reverse ++ acc) t := by
  induction w generalizing acc with
  | nil => rfl
  | cons c w ih =>
    rw [List.cons_append, wordsFrom, if_neg (by simp [h c (by simp)]), ih _ fun d hd => h d (by simp [hd])]
    simp

theorem words_space (t : Text) : words (' ' :: t) = words t := by
  simp [words, wordsFrom, isSpace]

theorem words_word {w : Text} (hn : w ≠ []) (h : ∀ c ∈ w, isSpace c = false) (t : Text) : words (w ++ ' ' :: t) = w :: words t := by
  unfold words
  rw [wordsFrom_word [] h]
  simp [wordsFrom, isSpace, hn]

theorem words_last {w : Text} (hn : w ≠ []) (h : ∀ c ∈ w, isSpace c = false) : words w = [w] := by
  have := wordsFrom_word [] h []
  unfold words
  rw [List.append_nil] at this
  rw [this]
  simp [wordsFrom, hn]

/-- a word that is fit for a message -/
def Word (w : Text) : Prop := w ≠ [] ∧ ∀ c ∈ w, isSpace c = false

theorem words_join {ws : List Text} (h : ∀ w ∈ ws, Word w) : words (joinSpace ws) = ws := by
  fun_induction joinSpace ws with
  | case1 => rfl
  | case2 w => exact words_last (h w (by simp)).1 (h w (by simp)).2
  | case3 w ws hne ih =>
    rw [words_word (h w (by simp)).1 (h w (by simp)).2, ih fun v hv => h v (by simp [hv])]

theorem words_join_space {ws : List Text} (h : ∀ w ∈ ws, Word w) : words (joinSpace ws ++ [' ']) = ws := by
  fun_induction joinSpace ws with
  | case1 => rfl
  | case2 w => rw [words_word (h w (by simp)).1 (h w (by simp)).2]; rfl
  | case3 w ws hne ih =>
    rw [List.append_assoc, List.cons_append, words_word (h w (by simp)).1 (h w (by simp)).2, ih fun v hv => h v (by simp [hv])]

/-! ## Dollar signs -/

/-- `u` becomes `u'`, whatever follows -/
def Un (u u' : Text) : Prop := ∀ v, unescapeDollar (u ++ v) = u' ++ unescapeDollar v

theorem Un.append {u u' v v' : Text} (h1 : Un u u') (h2 : Un v v') : Un (u ++ v) (u' ++ v') := by
  intro t
  rw [List.append_assoc, h1, h2, List.append_assoc]

theorem un_plain {w : Text} (h : ∀ c ∈ w, c ≠ '\\') : Un w w := by
  intro t
  induction w with
  | nil => rfl
  | cons c w ih =>
    rw [List.cons_append, unescapeDollar.eq_3 _ _ (fun _ e _ => h c (by simp) e), ih fun d hd => h d (by simp [hd])]
    rfl

theorem un_comma : Un " \\, ".toList " \\, ".toList := by
  intro t
  rfl

theorem un_semi : Un " \\; ".toList " \\; ".toList := by
  intro t
  rfl

theorem digit_ne {c : Char} (h : isDigit c = true) : isSpace c = false ∧ c ≠ '\\' ∧ c ≠ '$' := by
  have hv : 48 ≤ c.toNat ∧ c.toNat ≤ 57 := by
    simp only [isDigit, Bool.and_eq_true, decide_eq_true_eq] at h
    exact ⟨by have := h.1; simpa [Char.le_def, UInt32.le_iff_toNat_le] using this, by have := h.2; simpa [Char.le_def, UInt32.le_iff_toNat_le] using this⟩
  refine ⟨?_, ?_, ?_⟩
  · have : c ≠ ' ' := by rintro rfl; simp at hv
    simp only [isSpace, this, decide_false, Bool.false_or, Bool.or_eq_false_iff, Bool.and_eq_false_iff, decide_eq_false_iff_not]
    omega
  · rintro rfl; simp at hv
  · rintro rfl; simp at hv

theorem dec_digit {k : Nat} {c : Char} (h : c ∈ dec k) : isDigit c = true := ControlExpr.dec_digits k c h

theorem dec_ne (k : Nat) : dec k ≠ [] := by
  rw [dec]
  split <;> simp

theorem un_saved {num : Text → Option (BitVec 32)} {e : Elem} (h : e.Ok num) : Un e.saved e.text := by
  cases e with
  | num w f => exact un_plain fun c hc => (h.1.2 c hc).2.2
  | bang => exact un_plain (by decide)
  | name w => exact un_plain fun c hc => (h.1.2 c hc).2.2
  | arg k =>
    intro t
    have := un_plain (w := dec k) (fun c hc => (digit_ne (dec_digit hc)).2.1) t
    simp only [Elem.saved, Elem.text, List.cons_append]
    rw [unescapeDollar, this]

theorem word_text {num : Text → Option (BitVec 32)} {e : Elem} (h : e.Ok num) : Word e.text ∧ ∀ c ∈ e.text, c ≠ '\\' := by
  cases e with
  | num w f => exact ⟨⟨h.1.1, fun c hc => (h.1.2 c hc).1⟩, fun c hc => (h.1.2 c hc).2.2⟩
  | bang => exact ⟨⟨by decide, by decide⟩, by decide⟩
  | name w => exact ⟨⟨h.1.1, fun c hc => (h.1.2 c hc).1⟩, fun c hc => (h.1.2 c hc).2.2⟩
  | arg k =>
    refine ⟨⟨by simp [Elem.text], fun c hc => ?_⟩, fun c hc => ?_⟩
    · rcases List.mem_cons.mp hc with rfl | hc
      · decide
      · exact (digit_ne (dec_digit hc)).1
    · rcases List.mem_cons.mp hc with rfl | hc
      · decide
      · exact (digit_ne (dec_digit hc)).2.1

theorem takeWhile_all {p : Char → Bool} {l : Text} (h : ∀ c ∈ l, p c = true) : l.takeWhile p = l := by
  induction l with
  | nil => rfl
  | cons c l ih => rw [List.takeWhile_cons, if_pos (h c (by simp)), ih fun d hd => h d (by simp [hd])]

theorem concatenated_plain (pre : Text) {w : Text} (h : ∀ c ∈ w, c ≠ '$') : concatenated pre w = false := by
  induction w generalizing pre with
  | nil => rfl
  | cons c w ih =>
    rw [concatenated.eq_3 _ _ _ (h c (by simp)), ih _ fun d hd => h d (by simp [hd])]

theorem alone {num : Text → Option (BitVec 32)} {e : Elem} (h : e.Ok num) : concatenated [] e.text = false := by
  cases e with
  | num w f => exact concatenated_plain _ fun c hc => (h.1.2 c hc).2.1
  | bang => decide
  | name w => exact concatenated_plain _ fun c hc => (h.1.2 c hc).2.1
  | arg k =>
    simp only [Elem.text, concatenated]
    rw [takeWhile_all fun c hc => dec_digit hc, if_pos (dec_ne k)]
    simp

/-! ## Boxes -/

/-- messages fit for a box -/
def Okays (num : Text → Option (BitVec 32)) (ms : List (List Elem)) : Prop := ∀ es ∈ ms, es ≠ [] ∧ ∀ e ∈ es, e.Ok num

theorem un_join {num : Text → Option (BitVec 32)} {es : List Elem} (h : ∀ e ∈ es, e.Ok num) :
    Un (joinSpace (es.map Elem.saved)) (joinSpace (es.map Elem.text)) := by
  induction es with
  | nil => exact fun _ => rfl
  | cons e es ih =>
    cases es with
    | nil => exact un_saved (h e (by simp))
    | cons e' es =>
      have a := un_saved (h e (by simp))
      have b := ih fun x hx => h x (by simp [hx])
      exact a.append ((un_plain (w := [' ']) (by decide)).append b)

theorem un_commas {num : Text → Option (BitVec 32)} {ms : List (List Elem)} (h : Okays num ms) :
    Un (commas (ms.map (·.map Elem.saved))) (commas (shown ms)) := by
  induction ms with
  | nil => exact fun _ => rfl
  | cons es ms ih =>
    have a := un_join (h es (by simp)).2
    cases ms with
    | nil => exact a
    | cons es' ms => exact (a.append un_comma).append (ih fun x hx => h x (by simp [hx]))

/-- a receiver name and its messages -/
def OkRemote (num : Text → Option (BitVec 32)) (r : Text × List (List Elem)) : Prop := Plain r.1 ∧ Okays num r.2

theorem un_semis {num : Text → Option (BitVec 32)} {rs : List (Text × List (List Elem))} (h : ∀ r ∈ rs, OkRemote num r) :
    Un (semis (rs.map fun r => (r.1, r.2.map (·.map Elem.saved)))) (semis (rs.map fun r => (r.1, shown r.2))) := by
  induction rs with
  | nil => exact fun _ => rfl
  | cons r rs ih =>
    obtain ⟨r, ms⟩ := r
    obtain ⟨h1, h2⟩ := h (r, ms) (by simp)
    have a := un_plain (w := r) fun c hc => (h1.2 c hc).2.2
    exact ((un_semi.append a).append ((un_plain (w := [' ']) (by decide)).append (un_commas h2))).append (ih fun x hx => h x (by simp [hx]))

/-- words without backslashes -/
def Clean (ms : List (List Text)) : Prop := ∀ ws ∈ ms, ws ≠ [] ∧ ∀ w ∈ ws, Word w ∧ ∀ c ∈ w, c ≠ '\\'

theorem clean_shown {num : Text → Option (BitVec 32)} {ms : List (List Elem)} (h : Okays num ms) : Clean (shown ms) := by
  intro ws hws
  obtain ⟨es, hes, rfl⟩ := List.mem_map.mp hws
  refine ⟨by simpa using (h es hes).1, fun w hw => ?_⟩
  obtain ⟨e, he, rfl⟩ := List.mem_map.mp hw
  exact word_text ((h es hes).2 e he)

theorem join_no_esc {ws : List Text} (h : ∀ w ∈ ws, ∀ c ∈ w, c ≠ '\\') : ∀ c ∈ joinSpace ws, c ≠ '\\' := by
  fun_induction joinSpace ws with
  | case1 => simp
  | case2 w => exact h w (by simp)
  | case3 w ws hne ih =>
    intro c hc
    rcases List.mem_append.mp hc with hc | hc
    · exact h w (by simp) c hc
    · rcases List.mem_cons.mp hc with rfl | hc
      · decide
      · exact ih (fun v hv => h v (by simp [hv])) c hc

theorem commas_free {ms : List (List Text)} (h : Clean ms) : Free ';' (commas ms) := by
  fun_induction commas ms with
  | case1 => exact .nil
  | case2 ws => exact free_of (join_no_esc fun w hw => ((h ws (by simp)).2 w hw).2)
  | case3 ws ms hne ih =>
    refine ((free_of (join_no_esc fun w hw => ((h ws (by simp)).2 w hw).2)).append ?_).append (ih fun v hv => h v (by simp [hv]))
    exact .char (by decide) (.esc (by decide) (by decide) (.char (by decide) .nil))

theorem words_spaces (k : Nat) (t : Text) : words (List.replicate k ' ' ++ t) = words t := by
  induction k with
  | zero => rfl
  | succ k ih => rw [List.replicate_succ, List.cons_append, words_space, ih]

theorem words_join_spaces {ws : List Text} (h : ∀ w ∈ ws, Word w) (k : Nat) : words (joinSpace ws ++ List.replicate k ' ') = ws := by
  fun_induction joinSpace ws with
  | case1 =>
    have := words_spaces k []
    rw [List.append_nil] at this
    rw [List.nil_append, this]; rfl
  | case2 w =>
    cases k with
    | zero => rw [List.replicate_zero, List.append_nil]; exact words_last (h w (by simp)).1 (h w (by simp)).2
    | succ k =>
      rw [List.replicate_succ, words_word (h w (by simp)).1 (h w (by simp)).2]
      have := words_spaces k []
      rw [List.append_nil] at this
      rw [this]; rfl
  | case3 w ws hne ih =>
    rw [List.append_assoc, List.cons_append, words_word (h w (by simp)).1 (h w (by simp)).2, ih fun v hv => h v (by simp [hv])]

theorem split_commas {ms : List (List Text)} (h : Clean ms) (hne : ms ≠ []) (j k : Nat) :
    (splitEsc ',' (List.replicate j ' ' ++ (commas ms ++ List.replicate k ' '))).map words = ms := by
  have sp : ∀ j, ∀ c ∈ List.replicate j ' ', c ≠ '\\' := fun j c hc => by
    rw [List.eq_of_mem_replicate hc]; decide
  induction ms generalizing j with
  | nil => exact absurd rfl hne
  | cons ws ms ih =>
    have hw := h ws (by simp)
    have hj := free_of (e := ',') (join_no_esc fun w hx => (hw.2 w hx).2)
    cases ms with
    | nil =>
      rw [commas, splitEsc_all ((free_of (sp j)).append (hj.append (free_of (sp k))))]
      rw [List.map_singleton, words_spaces, words_join_spaces fun w hx => (hw.2 w hx).1]
    | cons ws' ms =>
      rw [commas]
      · have e : List.replicate j ' ' ++ (joinSpace ws ++ " \\, ".toList ++ commas (ws' :: ms) ++ List.replicate k ' ')
          = (List.replicate j ' ' ++ (joinSpace ws ++ List.replicate 1 ' ')) ++ '\\' :: ',' :: (List.replicate 1 ' ' ++ (commas (ws' :: ms) ++ List.replicate k ' ')) := by
          simp
        rw [e, splitEsc_sep ((free_of (sp j)).append (hj.append (free_of (sp 1)))), List.map_cons, ih (fun v hv => h v (by simp [hv])) (by simp),
          words_spaces, words_join_spaces fun w hx => (hw.2 w hx).1]
      · simp

theorem filter_ne {ms : List (List Text)} (h : Clean ms) : ms.filter (· ≠ []) = ms := by
  rw [List.filter_eq_self]
  intro ws hws
  simpa using (h ws hws).1

/-- the words of several messages, with the commas as words of their own -/
def tokens : List (List Text) → List Text
  | [] => []
  | [ws] => ws
  | ws :: ms => ws ++ "\\,".toList :: tokens ms

theorem words_tokens {ms : List (List Text)} (h : Clean ms) (k : Nat) : words (commas ms ++ List.replicate k ' ') = tokens ms := by
  induction ms with
  | nil =>
    have := words_spaces k []
    rw [List.append_nil] at this
    rw [commas, List.nil_append, this]; rfl
  | cons ws ms ih =>
    have hw := h ws (by simp)
    cases ms with
    | nil => rw [commas, words_join_spaces fun w hx => (hw.2 w hx).1]; rfl
    | cons ws' ms =>
      rw [commas, tokens]
      · have e : joinSpace ws ++ " \\, ".toList ++ commas (ws' :: ms) ++ List.replicate k ' '
          = joinSpace ws ++ ' ' :: ("\\,".toList ++ ' ' :: (commas (ws' :: ms) ++ List.replicate k ' ')) := by simp
        rw [e]
        have key : ∀ (us : List Text) (t : Text), us ≠ [] → (∀ w ∈ us, Word w) → words (joinSpace us ++ ' ' :: t) = us ++ words t := by
          intro us t hne hus
          fun_induction joinSpace us with
          | case1 => exact absurd rfl hne
          | case2 w => rw [words_word (hus w (by simp)).1 (hus w (by simp)).2]; rfl
          | case3 w us hne' ih =>
            rw [List.append_assoc, List.cons_append, words_word (hus w (by simp)).1 (hus w (by simp)).2,
              ih (by simpa using hne') fun v hv => hus v (by simp [hv])]
            rfl
        rw [key ws _ hw.1 (fun w hx => (hw.2 w hx).1), words_word (by decide) (by decide), ih fun v hv => h v (by simp [hv])]
      · simp
      · simp

theorem join_append {us vs : List Text} (hu : us ≠ []) (hv : vs ≠ []) : joinSpace (us ++ vs) = joinSpace us ++ ' ' :: joinSpace vs := by
  induction us with
  | nil => exact absurd rfl hu
  | cons u us ih =>
    cases us with
    | nil =>
      cases vs with
      | nil => exact absurd rfl hv
      | cons v vs => rfl
    | cons u' us =>
      have := ih (by simp)
      simp only [List.cons_append] at this ⊢
      have e : joinSpace (u :: u' :: us) = u ++ ' ' :: joinSpace (u' :: us) := rfl
      have e' : joinSpace (u :: u' :: (us ++ vs)) = u ++ ' ' :: joinSpace (u' :: (us ++ vs)) := rfl
      rw [e, e', this]
      simp

theorem tokens_ne {ms : List (List Text)} (h : Clean ms) (hne : ms ≠ []) : tokens ms ≠ [] := by
  cases ms with
  | nil => exact absurd rfl hne
  | cons ws ms =>
    cases ms with
    | nil => exact (h ws (by simp)).1
    | cons ws' ms => simp [tokens]

theorem join_tokens {ms : List (List Text)} (h : Clean ms) : joinSpace (tokens ms) = commas ms := by
  induction ms with
  | nil => rfl
  | cons ws ms ih =>
    cases ms with
    | nil => rfl
    | cons ws' ms =>
      have hc : Clean (ws' :: ms) := fun v hv => h v (by simp [hv])
      rw [commas, tokens, join_append (h ws (by simp)).1 (by simp)]
      · rw [show "\\,".toList :: tokens (ws' :: ms) = ["\\,".toList] ++ tokens (ws' :: ms) from rfl,
          join_append (by simp) (tokens_ne hc (by simp)), ih hc]
        simp [joinSpace]
      · simp
      · simp

/-- the texts between the semicolons -/
def pieces (u : Text) : List (Text × List (List Text)) → List Text
  | [] => [u]
  | (r, ms) :: rs => (u ++ [' ']) :: pieces (' ' :: r ++ ' ' :: commas ms) rs

theorem split_semis {u : Text} (hu : Free ';' u) {rs : List (Text × List (List Text))} (h : ∀ r ∈ rs, (∀ c ∈ r.1, c ≠ '\\') ∧ Clean r.2) :
    splitEsc ';' (u ++ semis rs) = pieces u rs := by
  induction rs generalizing u with
  | nil => rw [semis, List.append_nil]; exact splitEsc_all hu
  | cons r rs ih =>
    obtain ⟨r, ms⟩ := r
    obtain ⟨h1, h2⟩ := h (r, ms) (by simp)
    have e : u ++ semis ((r, ms) :: rs) = (u ++ [' ']) ++ '\\' :: ';' :: ((' ' :: r ++ ' ' :: commas ms) ++ semis rs) := by
      simp [semis]
    rw [e, splitEsc_sep (hu.append (.char (by decide) .nil)), ih _ fun x hx => h x (by simp [hx])]
    · rfl
    · exact Free.append (Free.char (by decide) (free_of h1)) (.char (by decide) (commas_free h2))

theorem pieces_ne {u : Text} (hu : u ≠ []) (rs : List (Text × List (List Text))) : (pieces u rs).filter (· ≠ []) = pieces u rs := by
  rw [List.filter_eq_self]
  intro t ht
  induction rs generalizing u with
  | nil => simp [pieces] at ht; simp [ht, hu]
  | cons r rs ih =>
    rcases List.mem_cons.mp ht with rfl | ht
    · simp
    · exact ih (by simp) ht

theorem words_piece {r : Text} (hr : Word r) {ms : List (List Text)} (h : Clean ms) (k : Nat) :
    words (' ' :: r ++ ' ' :: commas ms ++ List.replicate k ' ') = r :: tokens ms := by
  have e : ' ' :: r ++ ' ' :: commas ms ++ List.replicate k ' ' = ' ' :: (r ++ ' ' :: (commas ms ++ List.replicate k ' ')) := by simp
  rw [e, words_space, words_word hr.1 hr.2, words_tokens h]

theorem remotes_pieces {r : Text} {ms : List (List Text)} {rs : List (Text × List (List Text))}
    (h : ∀ x ∈ (r, ms) :: rs, Word x.1 ∧ Clean x.2) :
    remotes (pieces (' ' :: r ++ ' ' :: commas ms) rs) = some (((r, ms) :: rs).map fun x => (x.1, tokens x.2)) := by
  induction rs generalizing r ms with
  | nil =>
    obtain ⟨h1, h2⟩ := h (r, ms) (by simp)
    have := words_piece h1 h2 0
    rw [List.replicate_zero, List.append_nil] at this
    rw [pieces, remotes, this]
    rfl
  | cons x rs ih =>
    obtain ⟨r', ms'⟩ := x
    obtain ⟨h1, h2⟩ := h (r, ms) (by simp)
    have := words_piece h1 h2 1
    rw [pieces, remotes, show ' ' :: r ++ ' ' :: commas ms ++ [' '] = ' ' :: r ++ ' ' :: commas ms ++ List.replicate 1 ' ' from rfl, this]
    simp only
    rw [ih fun x hx => h x (by simp [List.mem_cons.mp hx])]
    rfl

theorem commas_ne {ms : List (List Text)} (h : Clean ms) (hne : ms ≠ []) : commas ms ≠ [] := by
  intro e
  have := words_tokens h 0
  rw [List.replicate_zero, List.append_nil, e] at this
  exact tokens_ne h hne this.symm

theorem parse_of {text : Text} {num : Text → Option (BitVec 32)} {ms : List (List Elem)} (hm : Okays num ms) (hne : ms ≠ [])
    {k : Nat} {rest : List Text} {rs : List (Text × List Text)}
    (h : (splitEsc ';' (unescapeDollar text)).filter (· ≠ []) = (commas (shown ms) ++ List.replicate k ' ') :: rest)
    (hr : remotes rest = some rs) : parse text = some ⟨shown ms, rs⟩ := by
  have hc := clean_shown hm
  unfold parse
  rw [h]
  have := split_commas hc (by simpa [shown] using hne) 0 k
  rw [List.replicate_zero, List.nil_append] at this
  simp only [this, filter_ne hc, hr, Option.map_some]
  rw [if_neg]
  simp only [List.any_eq_true, not_exists, not_and, Bool.not_eq_true]
  intro ws hws w hw
  obtain ⟨es, hes, rfl⟩ := List.mem_map.mp hws
  obtain ⟨e, he, rfl⟩ := List.mem_map.mp hw
  exact alone ((hm es hes).2 e he)

/-! ## C47: reading the box -/

/-- A box with at least one message of its own: these messages, in their order, and the messages to receivers. -/
theorem box_read_partial {num : Text → Option (BitVec 32)} {ms : List (List Elem)} (hm : Okays num ms) (hne : ms ≠ [])
    {rs : List (Text × List (List Elem))} (hr : ∀ r ∈ rs, OkRemote num r) :
    parse (boxText ms rs) = some ⟨shown ms, rs.map fun r => (r.1, tokens (shown r.2))⟩ := by
  have hc := clean_shown hm
  have hu : unescapeDollar (boxText ms rs) = commas (shown ms) ++ semis (rs.map fun r => (r.1, shown r.2)) := by
    have := ((un_commas hm).append (un_semis hr)) []
    simpa [boxText, unescapeDollar] using this
  have hs := split_semis (commas_free hc) (rs := rs.map fun r => (r.1, shown r.2)) (by
    intro x hx
    obtain ⟨r, h1, rfl⟩ := List.mem_map.mp hx
    exact ⟨fun c h2 => ((hr r h1).1.2 c h2).2.2, clean_shown (hr r h1).2⟩)
  have hn := commas_ne hc (by simpa [shown] using hne)
  cases rs with
  | nil =>
    refine parse_of hm hne (k := 0) (rest := []) ?_ rfl
    rw [hu, hs, pieces_ne hn]
    simp [pieces]
  | cons r rs =>
    refine parse_of hm hne (k := 1) (rest := pieces (' ' :: r.1 ++ ' ' :: commas (shown r.2)) (rs.map fun r => (r.1, shown r.2))) ?_ ?_
    · rw [hu, hs, pieces_ne hn]
      rfl
    · rw [remotes_pieces]
      · simp
      · intro x hx
        have : x ∈ (r :: rs).map fun r => (r.1, shown r.2) := by simpa using hx
        obtain ⟨y, h1, rfl⟩ := List.mem_map.mp this
        have := hr y h1
        exact ⟨⟨this.1.1, fun c hc => (this.1.2 c hc).1⟩, clean_shown this.2⟩

/-- The messages to a receiver are those of the box that is made for them. -/
theorem remote_read {num : Text → Option (BitVec 32)} {ms : List (List Elem)} (hm : Okays num ms) (hne : ms ≠ []) (r : Text) :
    remoteBox (r, tokens (shown ms)) = some ⟨shown ms, []⟩ := by
  have hc := clean_shown hm
  unfold remoteBox
  simp only
  rw [join_tokens hc]
  refine parse_of hm hne (k := 0) (rest := []) ?_ rfl
  have hu : unescapeDollar (commas (shown ms)) = commas (shown ms) := by
    have key : ∀ {ms : List (List Text)}, Clean ms → Un (commas ms) (commas ms) := by
      intro ms h
      induction ms with
      | nil => exact fun _ => rfl
      | cons ws ms ih =>
        have a := un_plain (join_no_esc fun w hw => ((h ws (by simp)).2 w hw).2)
        cases ms with
        | nil => exact a
        | cons ws' ms => exact (a.append un_comma).append (ih fun x hx => h x (by simp [hx]))
    have := key hc []
    simpa [unescapeDollar] using this
  rw [hu, splitEsc_all (commas_free hc)]
  simp [commas_ne hc (by simpa [shown] using hne)]

/-- Finding F46: a box without messages of its own, `; receiver message`, is taken for a local message, and nothing is sent
to the receiver. -/
theorem remote_only_is_local {num : Text → Option (BitVec 32)} {r : Text} (hr : Plain r) {es : List Elem} (hne : es ≠ []) (h : ∀ e ∈ es, e.Ok num) :
    parse ("\\; ".toList ++ r ++ ' ' :: joinSpace (es.map Elem.saved)) = some ⟨[r :: es.map Elem.text], []⟩ := by
  have hw : ∀ w ∈ r :: es.map Elem.text, Word w ∧ ∀ c ∈ w, c ≠ '\\' := by
    intro w hw
    rcases List.mem_cons.mp hw with rfl | hw
    · exact ⟨⟨hr.1, fun c hc => (hr.2 c hc).1⟩, fun c hc => (hr.2 c hc).2.2⟩
    · obtain ⟨e, he, rfl⟩ := List.mem_map.mp hw
      exact word_text (h e he)
  have hj : joinSpace (r :: es.map Elem.text) = r ++ ' ' :: joinSpace (es.map Elem.text) := by
    cases es with
    | nil => exact absurd rfl hne
    | cons e es => rfl
  have hfree := free_of (e := ';') (join_no_esc fun w hx => (hw w hx).2)
  have hfree' := free_of (e := ',') (join_no_esc fun w hx => (hw w hx).2)
  have hu : unescapeDollar ("\\; ".toList ++ r ++ ' ' :: joinSpace (es.map Elem.saved)) = '\\' :: ';' :: ' ' :: joinSpace (r :: es.map Elem.text) := by
    have a := un_plain (w := r) fun c hc => (hr.2 c hc).2.2
    have z : Un "\\; ".toList "\\; ".toList := fun _ => rfl
    have := ((z.append a).append ((un_plain (w := [' ']) (by decide)).append (un_join h))) []
    rw [hj]
    simpa [unescapeDollar] using this
  unfold parse
  rw [hu]
  have hsp := splitEsc_sep (e := ';') (u := []) .nil (' ' :: joinSpace (r :: es.map Elem.text))
  rw [List.nil_append] at hsp
  rw [hsp, splitEsc_all (.char (by decide) hfree)]
  have hws : words (' ' :: joinSpace (r :: es.map Elem.text)) = r :: es.map Elem.text := by
    rw [words_space, words_join fun w hx => (hw w hx).1]
  have hf : ([[], ' ' :: joinSpace (r :: es.map Elem.text)] : List Text).filter (· ≠ []) = [' ' :: joinSpace (r :: es.map Elem.text)] := by
    simp
  rw [hf]
  simp only [splitEsc_all (.char (c := ' ') (by decide) hfree'), List.map_cons, List.map_nil, hws]
  rw [show ([r :: es.map Elem.text] : List (List Text)).filter (· ≠ []) = [r :: es.map Elem.text] by simp]
  rw [if_neg]
  · rfl
  · simp only [List.any_cons, List.any_nil, Bool.or_false, Bool.or_eq_true, not_or, Bool.not_eq_true]
    refine ⟨concatenated_plain _ fun c hc => (hr.2 c hc).2.1, ?_⟩
    rw [← Bool.not_eq_true, List.any_eq_true]
    rintro ⟨w, hw, hx⟩
    obtain ⟨e, he, rfl⟩ := List.mem_map.mp hw
    rw [alone (h e he)] at hx
    exact absurd hx (by simp)

/-! ## C47: running the box -/

/-- the code for an element -/
def Elem.stmt (i : Nat) : Elem → Stmt
  | .num _ f => .float i f
  | .bang => .bang i
  | .arg k => .from_ i ((k : Int) - 1)
  | .name w => .sym i w

theorem gen_elem {num : Text → Option (BitVec 32)} (hp : PyFloat num) {e : Elem} (h : e.Ok num) (i : Nat) :
    genElem num i e.text = some (e.stmt i) := by
  cases e with
  | num w f =>
    show genElem num i w = some (.float i f)
    unfold genElem
    rw [h.2]
  | bang =>
    show genElem num i "bang".toList = some (.bang i)
    unfold genElem
    rw [hp.1]
    simp only [if_true]
  | arg k =>
    show genElem num i ('$' :: dec k) = some (.from_ i ((k : Int) - 1))
    unfold genElem
    rw [hp.2]
    have hb : '$' :: dec k ≠ "bang".toList := by
      intro e
      have := congrArg List.head? e
      simp at this
    simp only
    rw [if_neg hb, if_pos]
    · rw [if_pos]
      · have : decimal (dec k) = k := number_dec k
        simp [this]
      · rw [List.tail_cons, List.all_eq_true]
        exact fun c hc => dec_digit hc
    · rw [List.tail_cons, takeWhile_all fun c hc => dec_digit hc]
      exact ⟨rfl, dec_ne k⟩
  | name w =>
    show genElem num i w = some (.sym i w)
    unfold genElem
    rw [h.2.1]
    simp only
    rw [if_neg h.2.2.1, if_neg, if_neg h.2.2.2]
    rintro ⟨h1, -⟩
    cases w with
    | nil => simp at h1
    | cons c w =>
      simp at h1
      exact (h.1.2 c (by simp)).2.1 h1

/-- the code for elements -/
def stmts : Nat → List Elem → List Stmt
  | _, [] => []
  | i, e :: es => e.stmt i :: stmts (i + 1) es

theorem gen_from {num : Text → Option (BitVec 32)} (hp : PyFloat num) {es : List Elem} (h : ∀ e ∈ es, e.Ok num) (i : Nat) :
    genFrom num i (es.map Elem.text) = some (stmts i es) := by
  induction es generalizing i with
  | nil => rfl
  | cons e es ih =>
    simp only [List.map_cons, genFrom, gen_elem hp (h e (by simp)), ih (fun x hx => h x (by simp [hx])), stmts]
    rfl

theorem gen_box {num : Text → Option (BitVec 32)} (hp : PyFloat num) {ms : List (List Elem)} (h : Okays num ms) :
    gen num (shown ms) = some (ms.map (stmts 0)) := by
  unfold gen shown
  induction ms with
  | nil => rfl
  | cons es ms ih =>
    simp only [List.map_cons, List.mapM_cons, gen_from hp (h es (by simp)).2, ih fun x hx => h x (by simp [hx])]
    rfl

/-- the incoming message at `n`, its texts and the string literals of the program are where `Q` holds -/
structure World (P : Prog) (enc : Text → List Byte) (Q : Nat → Prop) (used : Text → Prop) (n t : Nat) (vs : List Val) (M : Mem) : Prop where
  msg : IsMsg M n t vs
  core : ∀ x, n ≤ x → x < n + (8 + 16 * vs.length) → Q x
  strs : ∀ (i : Nat) (h : i < vs.length) s, vs[i] = .sym s →
    (∀ x, rd M (n + 8 + 16 * i + 8) 8 ≤ x → x ≤ rd M (n + 8 + 16 * i + 8) 8 + s.length → Q x) ∧ s.length < P.fuel
  lits : ∀ w, used w → 0 < P.lit w ∧ P.lit w < 2 ^ 64 ∧ IsStr M (P.lit w) (enc w) ∧
    (∀ x, P.lit w ≤ x → x ≤ P.lit w + (enc w).length → Q x) ∧ (enc w).length < P.fuel

section
variable {P : Prog} {enc : Text → List Byte} {Q : Nat → Prop} {used : Text → Prop} {n t : Nat} {vs : List Val}

theorem World.congr {M N : Mem} (h : World P enc Q used n t vs M) (hMN : ∀ x, Q x → N x = M x) : World P enc Q used n t vs N := by
  have ptr : ∀ (i : Nat), i < vs.length → rd N (n + 8 + 16 * i + 8) 8 = rd M (n + 8 + 16 * i + 8) 8 := fun i hi =>
    rd_congr fun x h1 h2 => hMN x (h.core x (by omega) (by omega))
  refine ⟨⟨?_, ?_, ?_⟩, h.core, ?_, ?_⟩
  · rw [← h.msg.ts]
    exact rd_congr fun x h1 h2 => hMN x (h.core x (by omega) (by omega))
  · rw [← h.msg.num]
    exact rd_congr fun x h1 h2 => hMN x (h.core x (by omega) (by omega))
  · intro i hi
    refine (h.msg.elem i hi).congr (fun b hb => (hMN _ (h.core _ (by omega) (by omega))).symm) ?_
    intro s hs x g1 g2
    exact (hMN x ((h.strs i hi s hs).1 x g1 g2)).symm
  · intro i hi s hs
    rw [ptr i hi]
    exact h.strs i hi s hs
  · intro w hw
    obtain ⟨a, b, c, d, e⟩ := h.lits w hw
    exact ⟨a, b, c.congr fun x g1 g2 => (hMN x (d x g1 g2)).symm, d, e⟩

/-- the call that an element amounts to -/
def putOf (P : Prog) (M : Mem) (n : Nat) (vs : List Val) : Elem → Msg.Put
  | .num _ f => .float f
  | .bang => .bang
  | .name w => .sym (P.lit w)
  | .arg k =>
    match vs[k - 1]? with
    | some (.float f) => .float f
    | some (.hash h) => .hash h
    | some (.sym _) => .sym (rd M (n + 8 + 16 * (k - 1) + 8) 8)
    | _ => .bang

/-- the names among elements -/
def Uses (used : Text → Prop) (e : Elem) : Prop := ∀ w, e = .name w → used w

theorem putIs {M : Mem} (hW : World P enc Q used n t vs M) {a b : Nat} (hQ : ∀ x, Q x → x < a ∨ b ≤ x) (hab : a < b) {e : Elem} (hu : Uses used e)
    {v : Val} (hv : e.val enc vs = some v) : Msg.PutIs P.fuel M a b (putOf P M n vs e) v := by
  have away : ∀ (p : Nat) (l : Nat), (∀ x, p ≤ x → x ≤ p + l → Q x) → p + l < a ∨ b ≤ p := by
    intro p l h
    by_cases h1 : p + l < a
    · exact .inl h1
    · by_cases h2 : b ≤ p
      · exact .inr h2
      · exfalso
        have := hQ (max p a) (h _ (by omega) (by omega))
        omega
  cases e with
  | num w f => cases hv; rfl
  | bang => cases hv; trivial
  | name w =>
    cases hv
    obtain ⟨h1, h2, h3, h4, h5⟩ := hW.lits w (hu w rfl)
    exact ⟨h1, h2, h3, away _ _ h4, h5⟩
  | arg k =>
    simp only [Elem.val] at hv
    split at hv
    · simp at hv
    · have hk : k - 1 < vs.length := (List.getElem?_eq_some_iff.mp hv).1
      have hv' : vs[k - 1] = v := (List.getElem?_eq_some_iff.mp hv).2
      have hel := hW.msg.elem (k - 1) hk
      simp only [putOf, hv]
      cases v with
      | bang => trivial
      | float f => rfl
      | hash h => rfl
      | sym s =>
        rw [hv'] at hel
        obtain ⟨-, h1, h2⟩ := hel
        obtain ⟨h3, h4⟩ := hW.strs (k - 1) hk s hv'
        exact ⟨by omega, rd_lt _ _ _, h2, away _ _ h3, h4⟩

theorem exec_put {M : Mem} (hW : World P enc Q used n t vs M) {e : Elem} {v : Val} (hv : e.val enc vs = some v) (m i : Nat) :
    exec P M m n (e.stmt i) = Msg.put P.fuel M m i (putOf P M n vs e) := by
  cases e with
  | num w f => rfl
  | bang => rfl
  | name w => rfl
  | arg k =>
    simp only [Elem.val] at hv
    split at hv
    · simp at hv
    · rename_i hk0
      have hk : k - 1 < vs.length := (List.getElem?_eq_some_iff.mp hv).1
      have hv' : vs[k - 1] = v := (List.getElem?_eq_some_iff.mp hv).2
      have hel := hW.msg.elem (k - 1) hk
      have hj : (k : Int) - 1 = ((k - 1 : Nat) : Int) := by omega
      have hnum : k - 1 < Msg.numElements M n := by rw [hW.msg.num]; exact hk
      simp only [Elem.stmt, exec, Msg.setElementToFrom, putOf, hv]
      rw [hj, Msg.getType_ok hnum]
      rw [hv'] at hel
      simp only [bind, Except.bind]
      cases v with
      | bang =>
        rw [show rd M (n + 8 + 16 * (k - 1)) 4 = Msg.tBang from hel]
        rfl
      | float f =>
        obtain ⟨h1, h2⟩ := hel
        rw [h1]
        simp only [Msg.tFloat, Msg.tBang, Msg.getFloat, Msg.elemAddr_ok hnum, bind, Except.bind, h2]
        simp [Msg.put]
      | sym s =>
        rw [hel.1]
        simp only [Msg.tFloat, Msg.tBang, Msg.tSymbol, Msg.getSymbol_ok hnum]
        simp [Msg.put]
      | hash h =>
        obtain ⟨h1, h2⟩ := hel
        rw [h1]
        have hg : Msg.getHash P.fuel M n ((k - 1 : Nat) : Int) = .ok h := by
          unfold Msg.getHash
          rw [Msg.assert_true (by simpa using hnum), Msg.getType_ok hnum]
          simp only [bind, Except.bind, h1, Msg.elemAddr_ok hnum, h2]
          simp [Msg.tHash, Msg.tSymbol, Msg.tFloat, Msg.tBang]
        rw [hg]
        simp [Msg.put, Msg.tHash, Msg.tSymbol, Msg.tFloat, Msg.tBang]

/-- the calls for a message -/
def calls (P : Prog) (M : Mem) (n : Nat) (vs : List Val) : Nat → List Elem → List Val → List (Nat × Msg.Put × Val)
  | i, e :: es, w :: ws => (i, putOf P M n vs e, w) :: calls P M n vs (i + 1) es ws
  | _, _, _ => []

theorem putOf_congr {M N : Mem} (hW : World P enc Q used n t vs M) (hMN : ∀ x, Q x → N x = M x) {e : Elem} {v : Val} (hv : e.val enc vs = some v) :
    putOf P N n vs e = putOf P M n vs e := by
  cases e with
  | num => rfl
  | bang => rfl
  | name => rfl
  | arg k =>
    simp only [Elem.val] at hv
    split at hv
    · simp at hv
    · have hk : k - 1 < vs.length := (List.getElem?_eq_some_iff.mp hv).1
      simp only [putOf]
      rw [rd_congr (M := N) (N := M) (a := n + 8 + 16 * (k - 1) + 8) (k := 8) fun x h1 h2 => hMN x (hW.core x (by omega) (by omega))]

theorem execs_puts {M0 : Mem} (hW : World P enc Q used n t vs M0) {m N : Nat} (hQ : ∀ x, Q x → x < m ∨ m + (8 + 16 * N) ≤ x)
    {es : List Elem} {ws : List Val} (hv : es.mapM (Elem.val enc vs) = some ws) (hu : ∀ e ∈ es, Uses used e) {M : Mem}
    (hM : ∀ x, Q x → M x = M0 x) (hn : Msg.numElements M m = N) (i : Nat) (hi : i + es.length ≤ N) :
    execs P M m n (stmts i es) = Msg.puts P.fuel M m (Msg.args (calls P M0 n vs i es ws)) ∧
      ∀ p ∈ calls P M0 n vs i es ws, p.1 < N ∧ Msg.PutIs P.fuel M0 m (m + (8 + 16 * N)) p.2.1 p.2.2 := by
  induction es generalizing ws M i with
  | nil =>
    cases ws with
    | nil => exact ⟨rfl, by simp [calls]⟩
    | cons w ws => simp at hv
  | cons e es ih =>
    rw [List.mapM_cons] at hv
    simp only [bind, Option.bind_eq_some_iff, pure, Option.some_inj] at hv
    obtain ⟨w, h1, ws', h2, rfl⟩ := hv
    rw [List.length_cons] at hi
    have hWM := hW.congr hM
    have hp0 := putIs hW hQ (by omega) (hu e (by simp)) h1
    have hp := putIs hWM hQ (by omega) (hu e (by simp)) h1
    obtain ⟨M1, e1, -, e3, -⟩ := Msg.put_spec hn (show i < N by omega) hp
    have hM1 : ∀ x, Q x → M1 x = M0 x := by
      intro x hx
      have := hQ x hx
      rw [e3 x (by omega), hM x hx]
    have hn1 : Msg.numElements M1 m = N := by
      rw [← hn]
      exact rd_congr fun x h1 h2 => e3 x (by omega)
    obtain ⟨a, b⟩ := ih h2 (fun x hx => hu x (by simp [hx])) hM1 hn1 (i + 1) (by omega)
    refine ⟨?_, ?_⟩
    · simp only [stmts, execs, calls, Msg.args, List.map_cons, Msg.puts]
      rw [exec_put hWM h1, ← putOf_congr hW hM h1, e1]
      simp only [bind, Except.bind]
      exact a
    · intro p hp
      rcases List.mem_cons.mp hp with rfl | hp
      · exact ⟨by simp only; omega, hp0⟩
      · exact b p hp

theorem after_calls (M : Mem) {es : List Elem} {ws : List Val} (hl : es.length = ws.length) (done : List Val) (l : List (Option Val))
    (hlen : l.length = ws.length) :
    (calls P M n vs done.length es ws).foldl (fun vs p => vs.set p.1 (some p.2.2)) (done.map some ++ l) = (done ++ ws).map some := by
  induction es generalizing ws done l with
  | nil =>
    cases ws with
    | nil => cases l with
      | nil => simp [calls]
      | cons => simp at hlen
    | cons => simp at hl
  | cons e es ih =>
    cases ws with
    | nil => simp at hl
    | cons w ws =>
      cases l with
      | nil => simp at hlen
      | cons o l =>
        have := ih (ws := ws) (by simpa using hl) (done ++ [w]) l (by simpa using hlen)
        simp only [List.length_append, List.length_singleton, List.map_append, List.map_cons, List.map_nil, List.append_assoc, List.cons_append, List.nil_append] at this
        simp only [calls, List.foldl_cons]
        have hs : (done.map some ++ o :: l).set done.length (some w) = done.map some ++ some w :: l := by
          clear this ih hl hlen
          induction done with
          | nil => rfl
          | cons d done ihd => simp [ihd]
        rw [hs, this]
        simp

theorem stmts_length (i : Nat) (es : List Elem) : (stmts i es).length = es.length := by
  induction es generalizing i with
  | nil => rfl
  | cons e es ih => simp [stmts, ih]

theorem mapM_length {α β : Type} {f : α → Option β} {l : List α} {r : List β} (h : l.mapM f = some r) : l.length = r.length := by
  induction l generalizing r with
  | nil => cases r with
    | nil => rfl
    | cons => simp at h
  | cons a l ih =>
    rw [List.mapM_cons] at h
    simp only [bind, Option.bind_eq_some_iff, pure, Option.some_inj] at h
    obtain ⟨b, -, r', h2, rfl⟩ := h
    simp [ih h2]

theorem run_spec {stack : Nat → Nat} {env : Nat → Mem → Mem} (henv : ∀ j M x, Q x → env j M x = M x)
    (ms : List (List Elem)) (j : Nat) {M : Mem} (hW : World P enc Q used n t vs M)
    (hms : ∀ es ∈ ms, es ≠ [] ∧ es.length < 2 ^ 16 ∧ ∀ e ∈ es, Uses used e)
    (hst : ∀ (i : Nat) es, ms[i]? = some es → ∀ x, Q x → x < stack (j + i) ∨ stack (j + i) + (8 + 16 * es.length) ≤ x)
    {wss : List (List Val)} (hv : ms.mapM (fun es => es.mapM (Elem.val enc vs)) = some wss) :
    ∃ outs, run P stack env n j M (ms.map (stmts 0)) = .ok outs ∧ outs.length = ms.length ∧
      ∀ (i : Nat) ws, wss[i]? = some ws → ∃ M', outs[i]? = some (M', stack (j + i)) ∧ IsMsg M' (stack (j + i)) t ws := by
  induction ms generalizing j M wss with
  | nil =>
    cases wss with
    | nil => exact ⟨[], rfl, rfl, by simp⟩
    | cons => simp at hv
  | cons es ms ih =>
    rw [List.mapM_cons] at hv
    simp only [bind, Option.bind_eq_some_iff, pure, Option.some_inj] at hv
    obtain ⟨ws, h1, wss', h2, rfl⟩ := hv
    obtain ⟨g1, g2, g3⟩ := hms es (by simp)
    have hlen := mapM_length h1
    have hpos := List.length_pos_iff.mpr g1
    have hQ := hst 0 es rfl
    rw [Nat.add_zero] at hQ
    have ht : t < 2 ^ 32 := by
      rw [← hW.msg.ts]
      exact rd_lt M n 4
    obtain ⟨M1, e1, hB⟩ := Msg.init_spec (M := M) (m := stack j) hpos g2 ht
    have hM1 : ∀ x, Q x → M1 x = M x := fun x hx => hB.out x (hQ x hx)
    obtain ⟨a, b⟩ := execs_puts hW hQ h1 g3 hM1 hB.num 0 (by omega)
    obtain ⟨M2, f1, f2, -, f4⟩ := Msg.built_message P.fuel M (stack j) es.length t hpos g2 ht (calls P M n vs 0 es ws) b ws (by
      have := after_calls (P := P) (n := n) (vs := vs) M hlen [] (List.replicate es.length none) (by simp [hlen])
      simpa [Msg.after] using this)
    rw [e1] at f1
    simp only [bind, Except.bind] at f1
    have hM2 : ∀ x, Q x → M2 x = M x := fun x hx => f4 x (hQ x hx)
    obtain ⟨outs, r1, r2, r3⟩ := ih (j + 1) (M := env j M2) (hW.congr fun x hx => by rw [henv j M2 x hx, hM2 x hx])
      (fun x hx => hms x (by simp [hx]))
      (fun i x hx => by have := hst (i + 1) x (by simpa using hx); rwa [show j + 1 + i = j + (i + 1) by omega]) h2
    refine ⟨(M2, stack j) :: outs, ?_, by simp [r2], ?_⟩
    · simp only [List.map_cons, run, stmts_length, hW.msg.ts, e1, bind, Except.bind, a, f1, r1]
    · intro i ws'' hi
      cases i with
      | zero =>
        cases hi
        exact ⟨M2, rfl, f2⟩
      | succ i =>
        obtain ⟨M', q1, q2⟩ := r3 i ws'' (by simpa using hi)
        refine ⟨M', ?_, ?_⟩
        · rw [List.getElem?_cons_succ, q1, show j + 1 + i = j + (i + 1) by omega]
        · rwa [show j + (i + 1) = j + 1 + i by omega]

end

/-- A message box with its own messages `ms` is saved, compiled, and then receives a message with elements `vs` that has all the
elements that the box refers to.  Then the box sends exactly the messages `ms`, in this order, each with the timestamp of the
incoming message and with `$k` replaced by its element number `k`, whatever the connected objects do in between. -/
theorem message_box_partial {num : Text → Option (BitVec 32)} (hp : PyFloat num) {ms : List (List Elem)} (hm : Okays num ms) (hne : ms ≠ [])
    {rs : List (Text × List (List Elem))} (hr : ∀ r ∈ rs, OkRemote num r) (hlen : ∀ es ∈ ms, es.length < 2 ^ 16) :
    ∃ box code, parse (boxText ms rs) = some box ∧ gen num box.loc = some code ∧
      ∀ {P : Prog} {enc : Text → List Byte} {Q : Nat → Prop} {n t : Nat} {vs : List Val} {M : Mem} {stack : Nat → Nat} {env : Nat → Mem → Mem}
        {wss : List (List Val)}, World P enc Q (fun w => ∃ es ∈ ms, .name w ∈ es) n t vs M → (∀ j M x, Q x → env j M x = M x) →
        (∀ (i : Nat) es, ms[i]? = some es → ∀ x, Q x → x < stack i ∨ stack i + (8 + 16 * es.length) ≤ x) →
        ms.mapM (fun es => es.mapM (Elem.val enc vs)) = some wss →
        ∃ outs, run P stack env n 0 M code = .ok outs ∧ outs.length = ms.length ∧
          ∀ (i : Nat) ws, wss[i]? = some ws → ∃ M', outs[i]? = some (M', stack i) ∧ IsMsg M' (stack i) t ws := by
  refine ⟨_, _, box_read_partial hm hne hr, gen_box hp hm, ?_⟩
  intro P enc Q n t vs M stack env wss hW henv hst hv
  have := run_spec (stack := stack) henv ms 0 hW (fun es hes => ⟨(hm es hes).1, hlen es hes, fun e he w hw => ⟨es, hes, hw ▸ he⟩⟩)
    (fun i es h => by rw [Nat.zero_add]; exact hst i es h) hv
  simpa using this

/-- `$k` with `k` greater than the number of elements stops the program with an assertion … -/
theorem dollar_missing {P : Prog} {M : Mem} {n t : Nat} {vs : List Val} (h : IsMsg M n t vs) {k : Nat} (hk : vs.length < k) (m i : Nat) :
    exec P M m n ((Elem.arg k).stmt i) = .error .assertFail := by
  simp only [Elem.stmt, exec, Msg.setElementToFrom, Msg.getType, Msg.elemAddr]
  rw [Msg.assert_false (by simp [h.num]; omega)]
  rfl

/-- … and `$0` (finding F47: the argument is number −1) is undefined. -/
theorem dollar_zero_undefined {P : Prog} {M : Mem} {n t : Nat} {vs : List Val} (h : IsMsg M n t vs) (m i : Nat) :
    exec P M m n ((Elem.arg 0).stmt i) = .error .ub := by
  simp only [Elem.stmt, exec, Msg.setElementToFrom, Msg.getType, Msg.elemAddr]
  rw [Msg.assert_true (by simp [h.num]; omega)]
  rfl

/-- a concrete case: `$2 foo, 1 $1; bar 1` -/
def exampleNum (t : Text) : Option (BitVec 32) := if t = ['1'] then some 0x3F800000#32 else none

example : PyFloat exampleNum ∧ Okays exampleNum [[.arg 2, .name "foo".toList], [.num ['1'] 0x3F800000#32, .arg 1]] ∧
    OkRemote exampleNum ("bar".toList, [[.num ['1'] 0x3F800000#32]]) ∧
    boxText [[.arg 2, .name "foo".toList], [.num ['1'] 0x3F800000#32, .arg 1]] [("bar".toList, [[.num ['1'] 0x3F800000#32]])]
      = "\\$2 foo \\, 1 \\$1 \\; bar 1".toList := by
  refine ⟨⟨by decide, fun t => by simp [exampleNum]⟩, ?_, ?_, ?_⟩
  · intro es hes
    rcases List.mem_cons.mp hes with rfl | hes
    · refine ⟨by simp, fun e he => ?_⟩
      rcases List.mem_cons.mp he with rfl | he
      · trivial
      · rcases List.mem_cons.mp he with rfl | he
        · exact ⟨⟨by decide, by decide⟩, by decide, by decide, by decide⟩
        · simp at he
    · rcases List.mem_cons.mp hes with rfl | hes
      · refine ⟨by simp, fun e he => ?_⟩
        rcases List.mem_cons.mp he with rfl | he
        · exact ⟨⟨by decide, by decide⟩, by decide⟩
        · rcases List.mem_cons.mp he with rfl | he
          · trivial
          · simp at he
      · simp at hes
  · refine ⟨⟨by decide, by decide⟩, fun es hes => ?_⟩
    rcases List.mem_cons.mp hes with rfl | hes
    · refine ⟨by simp, fun e he => ?_⟩
      rcases List.mem_cons.mp he with rfl | he
      · exact ⟨⟨by decide, by decide⟩, by decide⟩
      · simp at he
    · simp at hes
  · simp [boxText, commas, semis, joinSpace, Elem.saved, Elem.text, dec]

end Verif.MessageBox
