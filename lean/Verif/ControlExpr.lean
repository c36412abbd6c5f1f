import Mathlib.Data.List.Sort
/-!
[expr]: the text of the C expression, `bind_expr`, `internal_expr`, `var_n` of hvcc/generators/ir2c/ControlExpr.py:92-196.
Texts are lists of ASCII characters (`\d`, `\b` of Python also know other scripts).
-/
namespace Verif.ControlExpr

abbrev Text := List Char

/-- `\d` -/
def isDigit (c : Char) : Bool := '0' ≤ c && c ≤ '9'

/-- the characters between which there is no `\b` -/
def isWord (c : Char) : Bool := isDigit c || ('a' ≤ c && c ≤ 'z') || ('A' ≤ c && c ≤ 'Z') || c = '_'

/-- left to right replacement, as done by `str.replace` and `re.sub`: where `p` matches (it sees whether the character before is a
word character, and the rest of the text) `len` characters are replaced by `r` -/
def scan (p : Bool → Text → Bool) (r : Text) (len : Nat) : Bool → Nat → Text → Text
  | _, _, [] => []
  | _, n + 1, c :: cs => scan p r len (isWord c) n cs
  | b, 0, c :: cs => if p b (c :: cs) then r ++ scan p r len (isWord c) (len - 1) cs else c :: scan p r len (isWord c) 0 cs

/-- `s.replace(v, r)` -/
def replace (v r : Text) (s : Text) : Text := scan (fun _ t => v.isPrefixOf t) r v.length false 0 s

/-- `re.sub(r"\bNAME(?=\()", r, s)` -/
def subWord (w r : Text) (s : Text) : Text := scan (fun b t => !b && (w ++ ['(']).isPrefixOf t) r w.length false 0 s

/-- the match of `\$[fis]\d+` at the start of the text -/
def varAt : Text → List Text
  | '$' :: t :: d :: cs => if (t = 'f' ∨ t = 'i' ∨ t = 's') ∧ isDigit d then ['$' :: t :: d :: cs.takeWhile isDigit] else []
  | _ => []

/-- `re.findall(r"\$[fis]\d+", exp)`, ControlExpr.py:130 -/
def findVars : Text → List Text
  | [] => []
  | c :: cs => varAt (c :: cs) ++ findVars cs

/-- `int(…)` of digits -/
def number (ds : Text) : Nat := ds.foldl (fun n c => 10 * n + (c.toNat - 48)) 0

/-- decimal digits -/
def dec (n : Nat) : Text :=
  if n < 10 then [Char.ofNat (48 + n)] else dec (n / 10) ++ [Char.ofNat (48 + n % 10)]
decreasing_by omega

/-- `{int(parts[2])-1}` -/
def decPred : Nat → Text
  | 0 => ['-', '1']
  | n + 1 => dec n

/-- `var_n`, ControlExpr.py:95-104; `none`: the assertion fails -/
def varN (a : Text) : Text → Option Text
  | '$' :: 'f' :: ds => some ("((float)(".toList ++ a ++ ['['] ++ decPred (number ds) ++ "]))".toList)
  | '$' :: 'i' :: ds => some ("((int)(".toList ++ a ++ ['['] ++ decPred (number ds) ++ "]))".toList)
  | _ => none

/-- `internal` and `hv_utils`, ControlExpr.py:111-114, 142-187 -/
def names : List (Text × Text) := [
  ("fact", "expr_fact"), ("imodf", "expr_imodf"),
  ("abs", "hv_abs_f"), ("acos", "hv_acos_f"), ("acosh", "hv_acosh_f"), ("asin", "hv_asin_f"), ("asinh", "hv_asinh_f"),
  ("atan", "hv_atan_f"), ("atanh", "hv_atanh_f"), ("atan2", "hv_atan2_f"), ("cbrt", "hv_cbrt_f"), ("ceil", "hv_ceil_f"),
  ("copysign", "hv_copysign_f"), ("cos", "hv_cos_f"), ("cosh", "hv_cosh_f"), ("erf", "hv_erf_f"), ("erfc", "hv_erfc_f"),
  ("exp", "hv_exp_f"), ("expm1", "hv_expm1_f"), ("finite", "hv_finite_f"), ("floor", "hv_floor_f"), ("if", "hv_if_f"),
  ("isinf", "hv_isinf_f"), ("isnan", "hv_isnan_f"), ("fmod", "hv_fmod_f"), ("ldexp", "hv_ldexp_f"), ("ln", "hv_ln_f"),
  ("log", "hv_log_f"), ("log10", "hv_log10_f"), ("log1p", "hv_log1p_f"), ("max", "hv_max_f"), ("min", "hv_min_f"),
  ("modf", "hv_modf_f"), ("pow", "hv_pow_f"), ("remainder", "hv_remainder_f"), ("rint", "hv_rint_f"), ("round", "hv_round_f"),
  ("sin", "hv_sin_f"), ("sinh", "hv_sinh_f"), ("sqrt", "hv_sqrt_f"), ("tan", "hv_tan_f"), ("tanh", "hv_tanh_f")].map
  fun x => (x.1.toList, x.2.toList)

/-- `internal_expr`, ControlExpr.py:107-121 -/
def internalExpr (s : Text) : Text :=
  names.foldl (fun s x => subWord x.1 x.2 s) (replace ['\\', ','] [','] s)

/-- comparison of strings -/
def strLe : Text → Text → Bool
  | [], _ => true
  | _ :: _, [] => false
  | a :: as, b :: bs => if a = b then strLe as bs else a.toNat < b.toNat

/-- `vars.sort(reverse=True)` -/
def sortRev (vs : List Text) : List Text := vs.mergeSort fun a b => strLe b a

/-- the loop, ControlExpr.py:136-138 -/
def bindAll (a : Text) : List Text → Text → Option Text
  | [], s => some s
  | v :: vs, s =>
    match varN a v with
    | none => none
    | some r => bindAll a vs (replace v r s)

/-- `bind_expr`, ControlExpr.py:129-140 -/
def bindExpr (s a : Text) : Option Text := bindAll a (sortRev (findVars s)) (internalExpr s)

end Verif.ControlExpr
