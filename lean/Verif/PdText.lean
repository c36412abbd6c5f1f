/-!
Reading the text of a Pd file: `get_pd_line` and `split_line`, hvcc/interpreters/pd2hv/PdParser.py:106-133.
-/
namespace Verif.PdText

abbrev Text := List Char

/-! ### Lines -/

/-- Python's universal newlines, `open(pd_path, "r")`, PdParser.py:109 -/
def universal : Text → Text
  | [] => []
  | '\r' :: '\n' :: cs => '\n' :: universal cs
  | '\r' :: cs => '\n' :: universal cs
  | c :: cs => c :: universal cs

/-- `for li in f`, PdParser.py:110; the line feed at the end of a line is left out, as it is removed in the next step -/
def lines : Text → Text → List Text
  | acc, [] => if acc = [] then [] else [acc.reverse]
  | acc, c :: cs => if c = '\n' then acc.reverse :: lines [] cs else lines (c :: acc) cs

/-- `li.rstrip("\r\n")`, PdParser.py:112 -/
def rstrip (l : Text) : Text := (l.reverse.dropWhile fun c => c = '\r' || c = '\n').reverse

/-- `li.endswith(";") and not li.endswith(r"\;")`, PdParser.py:113 -/
def ends (l : Text) : Bool := [';'].isSuffixOf l && !['\\', ';'].isSuffixOf l

/-- the loop of `get_pd_line` with the state `concat`, PdParser.py:108-120: the texts that it yields -/
def loop : Text → List Text → List Text
  | _, [] => []
  | concat, l :: ls =>
    let li := rstrip l
    if ends li then
      let out := li.dropLast
      if concat.length > 0 then (concat ++ [' '] ++ out) :: loop [] ls
      else out :: loop concat ls
    else loop (if concat.length > 0 then concat ++ [' '] ++ li else li) ls

/-- `get_pd_line` -/
def statements (file : Text) : List Text := loop [] (lines [] (universal file))

/-! ### Arguments -/

/-- `\d`; (a simplification: Python also accepts the digits of other scripts) -/
def isDigit (c : Char) : Bool := '0' ≤ c && c ≤ '9'

/-- `RE_WIDTH.sub("", li)` with `, f \d+$`, PdParser.py:61, 126 -/
def dropWidth (l : Text) : Text :=
  let r := l.reverse
  if r.takeWhile isDigit ≠ [] ∧ [' ', 'f', ' ', ','].isPrefixOf (r.dropWhile isDigit) then ((r.dropWhile isDigit).drop 4).reverse else l

/-- put a character in front of the first text -/
def consHead (c : Char) : List Text → List Text
  | [] => [[c]]
  | t :: ts => (c :: t) :: ts

/-- `RE_SPACE.split(li)` with `(?<!\\)\ `, PdParser.py:64, 128; `b`: the character before is a backslash -/
def splitSpaces : Bool → Text → List Text
  | _, [] => [[]]
  | b, c :: cs => if c = ' ' && !b then [] :: splitSpaces false cs else consHead c (splitSpaces (c = '\\') cs)

/-- `i.replace('\\ ', ' ')`, PdParser.py:130 -/
def unescape : Text → Text
  | [] => []
  | '\\' :: ' ' :: cs => ' ' :: unescape cs
  | c :: cs => c :: unescape cs

/-- `split_line` -/
def splitLine (l : Text) : List Text := (splitSpaces false (dropWidth l)).map unescape

end Verif.PdText
