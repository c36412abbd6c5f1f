/-!
[expr~]: the vector code of an expression and the table of evaluators.

* `BufferAllocator`, `ExprCWriter._simd_replace_constants`, `_bind_vars_R`, `_to_c_simd`: hvcc/generators/ir2c/expr/expr_c_writer.py:22-158
* `SignalExpr`: hvcc/generators/ir2c/SignalExpr.py; its use in hvcc/generators/ir2c/ir2c.py:150-272

The expression is given as a tree (`ExprNode`, expr_arpeggio_parser.py:25-37); the grammar gives every operator and function one, two
or three operands.  C types are not modelled (`__hv_var_k_i` assigns an integer vector).
-/
namespace Verif.ExprSig

/-- a number as it is written; `num_i` or `num_f` -/
structure Num where
  isInt : Bool
  text : Nat
  deriving DecidableEq, Repr

/-- the expressions the parser gives: numbers, variables `$vN`/`$fN` (`n` is N), functions and operators by number; `neg`: the node
with value "-" and one operand -/
inductive Ex
  | num (c : Num)
  | var (n : Nat)
  | neg (a : Ex)
  | un (f : Nat) (a : Ex)
  | bin (f : Nat) (a b : Ex)
  | tri (f : Nat) (a b c : Ex)
  deriving DecidableEq, Repr

/-- where a value is: an element of `bIns`, `Bf` + number, `bOut`, or (only at the root) a number -/
inductive Ref
  | inp (i : Int) | buf (n : Nat) | out | const (c : Num)
  deriving DecidableEq, Repr

/-- a line of C: `__hv_var_k_f(&Bf, c, …)` or `__hv_xxx_f(args, dest)` -/
inductive Instr
  | load (dst : Ref) (c : Num)
  | op (f : Nat) (args : List Ref) (dst : Ref)
  deriving DecidableEq, Repr

/-- `BufferAllocator` and the lines so far -/
structure St where
  avail : List Nat
  next : Nat
  lines : List Instr
  deriving DecidableEq, Repr

/-- the number of `-` in `ExprOpMap` -/
def opSub : Nat := 0

/-- the constant `0.0f` of expr_c_writer.py:124 -/
def zeroF : Num := ⟨false, 0⟩

/-- the digit `b[2]` of the name `b = "Bf…"`, expr_c_writer.py:155 -/
def firstDigit (n : Nat) : Nat := if n < 10 then n else firstDigit (n / 10)
decreasing_by omega

/-- `BufferAllocator.next`, expr_c_writer.py:30-38.  `set.pop` takes any element: `pick`, which may depend on the history. -/
def St.fresh (pick : List Instr → List Nat → Nat) (s : St) : Nat × St :=
  if s.avail = [] then (s.next, { s with next := s.next + 1 })
  else (pick s.lines s.avail, { s with avail := s.avail.erase (pick s.lines s.avail) })

/-- `BufferAllocator.free`, expr_c_writer.py:40-43 (a set) -/
def St.free (s : St) (n : Nat) : St := { s with avail := if n ∈ s.avail then s.avail else n :: s.avail }

/-- `lines.append` -/
def St.emit (s : St) (i : Instr) : St := { s with lines := s.lines ++ [i] }

/-- expr_c_writer.py:154-155: `for b in buffers: ba.free(int(b[2]))` -/
def St.freeAll (s : St) : List Ref → St
  | [] => s
  | .buf n :: rs => (s.free (firstDigit n)).freeAll rs
  | _ :: rs => s.freeAll rs

/-- expr_c_writer.py:132-140: a constant is loaded into a buffer -/
def St.load (pick : List Instr → List Nat → Nat) (s : St) (c : Num) : Ref × St :=
  ((.buf (s.fresh pick).1), (s.fresh pick).2.emit (.load (.buf (s.fresh pick).1) c))

/-- expr_c_writer.py:145-157: destination, line, release of the operands -/
def St.apply (pick : List Instr → List Nat → Nat) (s : St) (f : Nat) (args : List Ref) (root : Bool) : Ref × St :=
  if root then (.out, (s.emit (.op f args .out)).freeAll args)
  else (.buf (s.fresh pick).1, ((s.fresh pick).2.emit (.op f args (.buf (s.fresh pick).1))).freeAll args)

/-- `_to_c_simd_R`, expr_c_writer.py:120-157, after `_simd_replace_constants` (78-92: every number that is an operand is loaded)
and `_simd_bind_variables` (94-114: `$vN` becomes `bIns[N-1]`); `root`: `r_vec` is given -/
def comp (pick : List Instr → List Nat → Nat) (root : Bool) : Ex → St → Ref × St
  | .num c, s => if root then (.const c, s) else s.load pick c
  | .var n, s => (.inp ((n : Int) - 1), s)
  | .neg a, s =>
    let z := s.load pick zeroF
    let x := comp pick false a z.2
    x.2.apply pick opSub [z.1, x.1] root
  | .un f a, s =>
    let x := comp pick false a s
    x.2.apply pick f [x.1] root
  | .bin f a b, s =>
    let x := comp pick false a s
    let y := comp pick false b x.2
    y.2.apply pick f [x.1, y.1] root
  | .tri f a b c, s =>
    let x := comp pick false a s
    let y := comp pick false b x.2
    let z := comp pick false c y.2
    z.2.apply pick f [x.1, y.1, z.1] root

/-- the function `cExprSig_id_evaluate`, SignalExpr.py:62-95: number of declared buffers and lines -/
def evaluator (pick : List Instr → List Nat → Nat) (e : Ex) : Nat × List Instr :=
  ((comp pick true e ⟨[], 0, []⟩).2.next, (comp pick true e ⟨[], 0, []⟩).2.lines)

/-! ### running the lines -/

/-- the values of the functions (`__hv_xxx_f`, lane by lane) and constants -/
structure Alg (V : Type) where
  const : Num → V
  op : Nat → List V → V

/-- the buffers `Bf…` and `*bOut` -/
structure Mem (V : Type) where
  buf : Nat → V
  out : V

variable {V : Type}

/-- read an operand (operands are passed by value) -/
def Mem.get (A : Alg V) (bIns : Int → V) (m : Mem V) : Ref → V
  | .inp i => bIns i
  | .buf n => m.buf n
  | .out => m.out
  | .const c => A.const c

/-- write through a pointer -/
def Mem.set (m : Mem V) (d : Ref) (v : V) : Mem V :=
  match d with
  | .buf n => { m with buf := fun k => if k = n then v else m.buf k }
  | .out => { m with out := v }
  | _ => m

/-- one line -/
def Instr.exec (A : Alg V) (bIns : Int → V) (m : Mem V) : Instr → Mem V
  | .load d c => m.set d (A.const c)
  | .op f args d => m.set d (A.op f (args.map (m.get A bIns)))

/-- all lines -/
def exec (A : Alg V) (bIns : Int → V) (is : List Instr) (m : Mem V) : Mem V := is.foldl (Instr.exec A bIns) m

/-! ### the table of evaluators -/

/-- `obj_eval_functions`, SignalExpr.py:31: a dictionary in the order of insertion.  `dict[k] = v` -/
def dictSet (d : List (Nat × Nat)) (k v : Nat) : List (Nat × Nat) :=
  if d.any (·.1 = k) then d.map fun x => if x.1 = k then (k, v) else x else d ++ [(k, v)]

/-- the loop over `processOrder`, ir2c.py:248-272, for the expr~ objects with ids `ids` (the function of object `k` is called `k`):
`get_C_process` uses the length of the dictionary, SignalExpr.py:112; then `get_C_obj_header_code` adds the function, 52-60.
The result: the calls (object, index), and the table -/
def processList : List Nat → List (Nat × Nat) → List (Nat × Nat) × List (Nat × Nat)
  | [], d => ([], d)
  | id :: ids, d => ((id, d.length) :: (processList ids (dictSet d id id)).1, (processList ids (dictSet d id id)).2)

/-- the array `cExprSig_evaluators`, SignalExpr.py:42-50 -/
def evaluators (d : List (Nat × Nat)) : List Nat := d.map (·.2)

end Verif.ExprSig
