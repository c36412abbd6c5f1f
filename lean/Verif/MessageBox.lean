import Verif.Message
import Verif.PdText
/-!
Message boxes: the text of the box, `PdMessageObject`, hvcc/interpreters/pd2hv/PdMessageObject.py:39-71, and the generated
function, `ControlMessage.get_C_impl`, hvcc/generators/ir2c/ControlMessage.py:33-87, run on a message in memory.
-/
namespace Verif.MessageBox
open Verif.Msg (R Err Val)
open Verif.Mem
open Verif.PdText (Text consHead isDigit)

/-! ### The text -/

/-- `.replace(r"\$", "$")`, PdMessageObject.py:45 -/
def unescapeDollar : Text → Text
  | [] => []
  | '\\' :: '$' :: cs => '$' :: unescapeDollar cs
  | c :: cs => c :: unescapeDollar cs

/-- `.split(r"\;")` and `.split(r"\,")`, PdMessageObject.py:45, 51: `e` is the character behind the backslash -/
def splitEsc (e : Char) : Text → List Text
  | [] => [[]]
  | [c] => [[c]]
  | c :: d :: cs => if c = '\\' ∧ d = e then [] :: splitEsc e cs else consHead c (splitEsc e (d :: cs))

/-- white space (a simplification: Python knows more, outside ASCII) -/
def isSpace (c : Char) : Bool := c = ' ' || (9 ≤ c.toNat && c.toNat ≤ 13) || (28 ≤ c.toNat && c.toNat ≤ 31)

/-- `str.split()`: the words; the first argument is the word in front of the text, reversed -/
def wordsFrom : Text → Text → List Text
  | acc, [] => if acc = [] then [] else [acc.reverse]
  | acc, c :: cs => if isSpace c then (if acc = [] then [] else [acc.reverse]) ++ wordsFrom [] cs else wordsFrom (c :: acc) cs

def words (t : Text) : List Text := wordsFrom [] t

/-- `x = __RE_DOLLAR.search(m); x and len(x.group(0)) < len(m)` with `\$(\d+)`, PdMessageObject.py:60-66: the message is refused
when a dollar argument is not alone -/
def concatenated : Text → Text → Bool
  | _, [] => false
  | pre, '$' :: cs =>
    if cs.takeWhile isDigit ≠ [] then decide ((cs.takeWhile isDigit).length + 1 < pre.length + cs.length + 1)
    else concatenated ('$' :: pre) cs
  | pre, c :: cs => concatenated (c :: pre) cs

/-- `obj_dict` -/
structure Box where
  loc : List (List Text)
  remote : List (Text × List Text)
  deriving DecidableEq, Repr

/-- the remote messages, PdMessageObject.py:68-75; `none`: `l_split[0]` raises `IndexError` -/
def remotes : List Text → Option (List (Text × List Text))
  | [] => some []
  | t :: ts =>
    match words t with
    | [] => none
    | r :: ws => (remotes ts).map ((r, ws) :: ·)

/-- `PdMessageObject.__init__`, PdMessageObject.py:42-75; `none`: an error (a dollar argument that is not alone, or an exception) -/
def parse (text : Text) : Option Box :=
  match (splitEsc ';' (unescapeDollar text)).filter (· ≠ []) with
  | [] => some ⟨[], []⟩
  | l :: rs =>
    let loc := ((splitEsc ',' l).map words).filter (· ≠ [])
    if loc.any (·.any (concatenated [])) then none else (remotes rs).map fun r => ⟨loc, r⟩

/-- `" ".join(…)` -/
def joinSpace : List Text → Text
  | [] => []
  | [w] => w
  | w :: ws => w ++ ' ' :: joinSpace ws

/-- the message box made for a remote message, PdParser.py:641-643 -/
def remoteBox (r : Text × List Text) : Option Box := parse (joinSpace r.2)

/-! ### The generated function -/

/-- one line of the generated code that fills element `i` of the new message -/
inductive Stmt
  | float (i : Nat) (f : BitVec 32)  -- `msg_setFloat(m, i, …f);`
  | bang (i : Nat)                   -- `msg_setBang(m, i);`
  | from_ (i : Nat) (j : Int)        -- `msg_setElementToFrom(m, i, n, j);`
  | nSimd (i : Nat)                  -- `msg_setFloat(m, i, static_cast<float>(HV_N_SIMD));`
  | sym (i : Nat) (w : Text)         -- `msg_setSymbol(m, i, "…");`
  deriving DecidableEq, Repr

/-- the value of a decimal number, `int(…)` -/
def decimal (ds : Text) : Nat := ds.foldl (fun n c => 10 * n + (c.toNat - '0'.toNat)) 0

/-- ControlMessage.py:57-74; `num`: Python's `float(e)`, as the bit pattern of the C constant; `none`: `int(e[1:])` raises -/
def genElem (num : Text → Option (BitVec 32)) (i : Nat) (e : Text) : Option Stmt :=
  match num e with
  | some f => some (.float i f)
  | none =>
    if e = "bang".toList then some (.bang i)
    else if e.head? = some '$' ∧ (e.tail.takeWhile isDigit) ≠ [] then
      if e.tail.all isDigit then some (.from_ i ((decimal e.tail : Int) - 1)) else none
    else if e = "@HV_N_SIMD".toList then some (.nSimd i)
    else some (.sym i e)

/-- the loop over the elements -/
def genFrom (num : Text → Option (BitVec 32)) : Nat → List Text → Option (List Stmt)
  | _, [] => some []
  | i, e :: es => do some ((← genElem num i e) :: (← genFrom num (i + 1) es))

/-- the code of all messages, ControlMessage.py:50-84 -/
def gen (num : Text → Option (BitVec 32)) (loc : List (List Text)) : Option (List (List Stmt)) := loc.mapM (genFrom num 0)

/-- what the compiled program is made of: `lit`: the addresses of string literals, `nSimd`: the bit pattern of `HV_N_SIMD`,
`fuel`: see `Verif.Message` -/
structure Prog where
  fuel : Nat
  lit : Text → Nat
  nSimd : BitVec 32

/-- one line; `m`: the new message, `n`: the incoming one -/
def exec (P : Prog) (M : Mem) (m n : Nat) : Stmt → R Mem
  | .float i f => Msg.setFloat M m i f
  | .bang i => Msg.setBang M m i
  | .from_ i j => Msg.setElementToFrom P.fuel M m i n j
  | .nSimd i => Msg.setFloat M m i P.nSimd
  | .sym i w => Msg.setSymbol P.fuel M m i (P.lit w)

def execs (P : Prog) (M : Mem) (m n : Nat) : List Stmt → R Mem
  | [] => .ok M
  | s :: ss => do execs P (← exec P M m n s) m n ss

/-- the run of `cMsg_…_sendMessage` for the incoming message at `n`: for each message, `HV_MESSAGE_ON_STACK` gives the address
`stack j`, `msg_init` and the lines above fill it, and the connected objects are called, which changes the memory by `env j`.
The result are the memory and the address at each call. -/
def run (P : Prog) (stack : Nat → Nat) (env : Nat → Mem → Mem) (n : Nat) : Nat → Mem → List (List Stmt) → R (List (Mem × Nat))
  | _, _, [] => .ok []
  | j, M, ss :: rest => do
    let M ← Msg.init M (stack j) ss.length (Msg.getTimestamp M n)
    let M ← execs P M (stack j) n ss
    .ok ((M, stack j) :: (← run P stack env n (j + 1) (env j M) rest))

end Verif.MessageBox
