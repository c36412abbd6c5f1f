import Verif.ExprSig
/-!
[expr~]: from the text of an expression to its tree.

* the grammar: hvcc/generators/ir2c/expr/expr_arpeggio_grammar.py:28-106
* the lookup of operators and variables: hvcc/generators/ir2c/expr/expr_c_writer.py:101-114, 179-261
* the tree: hvcc/generators/ir2c/expr/expr_arpeggio_parser.py:25-104 (`ExprNode`, `parse_to_ast`, `to_expr_tree`)

The grammar is run by Arpeggio's `ParserPython(expr, reduce_tree=True)`, whose source is not in the repository.  Modelled from its
documentation: a recursive descent (PEG) parser without lexer; white space (tab, newline, return, space) is skipped before every
terminal; a sequence stops at its first failure; an ordered choice takes the first alternative that matches, from the same position;
`ZeroOrMore` goes on until its sequence fails and then returns to the position before that attempt; a rule with one (not hidden)
child is replaced by the child; text after the match of the first rule is not looked at (no `EOF`).  Texts are lists of characters,
`\d` is an ASCII digit.  Python's recursion limit is not modelled.
-/
namespace Verif.ExprParse

abbrev Text := List Char

/-- `ExprNode`, expr_arpeggio_parser.py:25-37: its type, value and nodes.  `num true`: "num_f", `num false`: "num_i" -/
inductive Node
  | num (float : Bool) (text : Text)
  | var (text : Text)
  | un (op : Text) (a : Node)
  | bin (op : Text) (a b : Node)
  | fn1 (f : Text) (a : Node)
  | fn2 (f : Text) (a b : Node)
  | fn3 (f : Text) (a b c : Node)
  deriving DecidableEq, Repr

/-- Arpeggio: the default `ws` -/
def isWs (c : Char) : Bool := c = ' ' || c = '\t' || c = '\n' || c = '\r'

/-- Arpeggio: white space is skipped before a terminal -/
def skip (s : Text) : Text := s.dropWhile isWs

/-- `\d` -/
def isDigit (c : Char) : Bool := '0' ≤ c && c ≤ '9'

/-- `StrMatch`: what is left after the literal `t` -/
def lit (t s : Text) : Option Text := if t.isPrefixOf (skip s) then some ((skip s).drop t.length) else none

/-- an ordered choice of literals -/
def firstOf : List Text → Text → Option (Text × Text)
  | [], _ => none
  | o :: os, s => match lit o s with
    | some r => some (o, r)
    | none => firstOf os s

/-- the operators of the rules lor, land, bor, xor, band, eq, gtlte, gtlt, shift, term, factor, expr_arpeggio_grammar.py:30-40 -/
def ops : Nat → List Text
  | 0 => [['|', '|']]
  | 1 => [['&', '&']]
  | 2 => [['|']]
  | 3 => [['^']]
  | 4 => [['&']]
  | 5 => [['=', '='], ['!', '=']]
  | 6 => [['<', '='], ['>', '=']]
  | 7 => [['<'], ['>']]
  | 8 => [['<', '<'], ['>', '>']]
  | 9 => [['+'], ['-']]
  | 10 => [['*'], ['/'], ['%']]
  | _ => []

/-- the operators of `unary`, expr_arpeggio_grammar.py:41 -/
def unops : List Text := [['-'], ['~'], ['!']]

/-- `num_f`, the regular expression `\d+\.\d+`, expr_arpeggio_grammar.py:51 -/
def numF (s : Text) : Option (Text × Text) :=
  match (skip s).takeWhile isDigit, (skip s).dropWhile isDigit with
  | d :: ds, '.' :: r =>
    match r.takeWhile isDigit with
    | [] => none
    | e :: es => some (d :: ds ++ '.' :: e :: es, r.dropWhile isDigit)
  | _, _ => none

/-- `num_i`, the regular expression `\d+`, expr_arpeggio_grammar.py:52 -/
def numI (s : Text) : Option (Text × Text) :=
  match (skip s).takeWhile isDigit with
  | [] => none
  | d :: ds => some (d :: ds, (skip s).dropWhile isDigit)

/-- `[fisv]` -/
def isKind (c : Char) : Bool := c = 'f' || c = 'i' || c = 's' || c = 'v'

/-- `var`, the regular expression `\$[fisv]\d+`, expr_arpeggio_grammar.py:44 -/
def varAt (s : Text) : Option (Text × Text) :=
  match skip s with
  | '$' :: k :: r =>
    match isKind k, r.takeWhile isDigit with
    | true, d :: ds => some ('$' :: k :: d :: ds, r.dropWhile isDigit)
    | _, _ => none
  | _ => none

/-- the names of `f_name`, expr_arpeggio_grammar.py:53-103 -/
def names : List Text :=
  ["abs", "acos", "acosh", "asin", "asinh", "atan", "atan2", "atanh", "cbrt", "ceil", "copysign", "cos", "cosh", "drem", "erf",
   "erfc", "exp", "expm1", "fact", "finite", "float", "floor", "fmod", "if", "imodf", "int", "isinf", "isnan", "ldexp", "ln",
   "log", "log10", "log1p", "max", "min", "modf", "pow", "remainder", "rint", "round", "nearbyint", "sin", "sinh", "sqrt", "tan",
   "tanh"].map String.toList

/-- `f_name`, the regular expressions `\bNAME(?=\()`, expr_arpeggio_grammar.py:53-103.  Simplified: `\b` always holds, because a
function is only tried at the start, after white space, an operator, `(` or `\,`; none of these end in a word character. -/
def fName : List Text → Text → Option (Text × Text)
  | [], _ => none
  | n :: ns, s => if (n ++ ['(']).isPrefixOf (skip s) then some (n, (skip s).drop n.length) else fName ns s

/-- the result of a rule: a value and the rest of the text, or no match; `late`: the model's step bound is used up (`parse_total`) -/
inductive Res (α : Type)
  | late
  | fail
  | ok (a : α) (rest : Text)
  deriving DecidableEq, Repr

variable {α β : Type}

/-- sequence -/
def Res.bind : Res α → (α → Text → Res β) → Res β
  | .ok a r, f => f a r
  | .fail, _ => .fail
  | .late, _ => .late

/-- ordered choice -/
def Res.orElse : Res α → Res α → Res α
  | .fail, y => y
  | x, _ => x

/-- a terminal -/
def term (x : Option (α × Text)) : Res α :=
  match x with
  | some (a, r) => .ok a r
  | none => .fail

/-- a hidden terminal -/
def hide (t s : Text) : Res Unit :=
  match lit t s with
  | some r => .ok () r
  | none => .fail

/-- `to_expr_tree` of a chain of operators of one rule, expr_arpeggio_parser.py:88-102; a chain without operators is reduced to its
only child by `reduce_tree` -/
def chain (a : Node) (xs : List (Text × Node)) : Node := xs.foldl (fun t x => .bin x.1 t x.2) a

mutual

/-- the rules lor … factor (`k` = 0 … 10), expr_arpeggio_grammar.py:30-40, and `unary` (`k` = 11), with `to_expr_tree`.  `expr` and
`none` (28-29) are the rule lor: the literal " " of `none` never matches, because white space is skipped before it. -/
def level : Nat → Nat → Text → Res Node
  | 0, _, _ => .late
  | n + 1, k, s =>
    if k < 11 then (level n (k + 1) s).bind fun a r => (many n k r).bind fun xs r' => .ok (chain a xs) r'
    else unary n s

/-- `ZeroOrMore([…], operand)` -/
def many : Nat → Nat → Text → Res (List (Text × Node))
  | 0, _, _ => .late
  | n + 1, k, s =>
    (((term (firstOf (ops k) s)).bind fun o r => (level n (k + 1) r).bind fun b r' => .ok (o, b) r').bind
      fun x r' => (many n k r').bind fun xs r'' => .ok (x :: xs) r'').orElse (.ok [] s)

/-- `unary`, expr_arpeggio_grammar.py:41; expr_arpeggio_parser.py:66-67 -/
def unary : Nat → Text → Res Node
  | 0, _ => .late
  | n + 1, s => ((term (firstOf unops s)).bind fun o r => (unary n r).bind fun a r' => .ok (.un o a) r').orElse (primary n s)

/-- `primary`, `number`, `var`, `group`, expr_arpeggio_grammar.py:42-44, 50-52; expr_arpeggio_parser.py:62-63 -/
def primary : Nat → Text → Res Node
  | 0, _ => .late
  | n + 1, s =>
    ((term (numF s)).bind fun t r => .ok (.num true t) r).orElse
      (((term (numI s)).bind fun t r => .ok (.num false t) r).orElse
        (((term (varAt s)).bind fun t r => .ok (.var t) r).orElse
          ((func n s).orElse
            ((hide ['('] s).bind fun _ r => (level n 0 r).bind fun e r' => (hide [')'] r').bind fun _ r'' => .ok e r''))))

/-- `func`, expr_arpeggio_grammar.py:45-49; expr_arpeggio_parser.py:64-65 -/
def func : Nat → Text → Res Node
  | 0, _ => .late
  | n + 1, s =>
    ((term (fName names s)).bind fun f r0 => (hide ['('] r0).bind fun _ r1 => (level n 0 r1).bind fun a r2 =>
        (hide [')'] r2).bind fun _ r3 => .ok (.fn1 f a) r3).orElse
      (((term (fName names s)).bind fun f r0 => (hide ['('] r0).bind fun _ r1 => (level n 0 r1).bind fun a r2 =>
          (hide ['\\', ','] r2).bind fun _ r3 => (level n 0 r3).bind fun b r4 =>
          (hide [')'] r4).bind fun _ r5 => .ok (.fn2 f a b) r5).orElse
        ((term (fName names s)).bind fun f r0 => (hide ['('] r0).bind fun _ r1 => (level n 0 r1).bind fun a r2 =>
          (hide ['\\', ','] r2).bind fun _ r3 => (level n 0 r3).bind fun b r4 =>
          (hide ['\\', ','] r4).bind fun _ r5 => (level n 0 r5).bind fun c r6 =>
          (hide [')'] r6).bind fun _ r7 => .ok (.fn3 f a b c) r7))

end

/-- `parse_to_ast`, expr_arpeggio_parser.py:53-55, with the text that is left unread (which the code does not look at) -/
def parse (s : Text) : Res Node := level (20 * s.length + 60) 0 s

/-- the keys of `ExprOpMap.op_map`, expr_c_writer.py:180-253, without the two internal ones; an operator or function is known by its
place in this list (in which "-" is first, see `ExprSig.opSub`) -/
def opKeys : List Text :=
  ["-", "~", "!", "*", "/", "%", "+", "<", "<=", ">", ">=", "<<", ">>", "==", "!=", "^", "&", "&&", "|", "||", "abs", "acos",
   "acosh", "asin", "asinh", "atan", "atan2", "atanh", "cbrt", "ceil", "copysign", "cos", "cosh", "erf", "erfc", "exp", "expm1",
   "fact", "finite", "float", "floor", "fmod", "if", "imodf", "int", "isinf", "isnan", "ldexp", "ln", "log", "log10", "log1p",
   "max", "min", "modf", "pow", "remainder", "rint", "round", "nearbyint", "sin", "sinh", "sqrt", "tan", "tanh"].map String.toList

/-- `op_map[symbol]`, expr_c_writer.py:260-261; `none`: KeyError -/
def opNum (o : Text) : Option Nat := if o ∈ opKeys then some (opKeys.idxOf o) else none

/-- `int(…)` of digits -/
def number (ds : Text) : Nat := ds.foldl (fun n c => 10 * n + (c.toNat - 48)) 0

/-- `_bind_var_node`, expr_c_writer.py:108-114; `none`: the assertion fails -/
def bindVar : Text → Option Nat
  | '$' :: 'v' :: ds => some (number ds)
  | '$' :: 'f' :: ds => some (number ds)
  | _ => none

/-- the tree as `ExprSig` has it: names are looked up, variables bound, and "-" with one operand is the negation
(expr_c_writer.py:121-124); `code`: the numbers (texts) as numbers.  `none`: an exception -/
def Node.toEx (code : Text → Nat) : Node → Option ExprSig.Ex
  | .num fl t => some (.num ⟨!fl, code t⟩)
  | .var t => (bindVar t).map .var
  | .un o a => if o = ['-'] then (a.toEx code).map .neg else (opNum o).bind fun f => (a.toEx code).map (.un f)
  | .bin o a b => (opNum o).bind fun f => (a.toEx code).bind fun x => (b.toEx code).map (.bin f x)
  | .fn1 o a => (opNum o).bind fun f => (a.toEx code).map (.un f)
  | .fn2 o a b => (opNum o).bind fun f => (a.toEx code).bind fun x => (b.toEx code).map (.bin f x)
  | .fn3 o a b c => (opNum o).bind fun f => (a.toEx code).bind fun x => (b.toEx code).bind fun y => (c.toEx code).map (.tri f x y)

/-- `ExprCWriter(expression).to_c_simd("bIns", "bOut")` and `num_simd_buffers`, SignalExpr.py:69-75: the number of buffers and the
lines of the evaluator; `none`: an exception -/
def compile (pick : List ExprSig.Instr → List Nat → Nat) (code : Text → Nat) (s : Text) : Option (Nat × List ExprSig.Instr) :=
  match parse s with
  | .ok e _ => (e.toEx code).map (ExprSig.evaluator pick)
  | _ => none

end Verif.ExprParse
