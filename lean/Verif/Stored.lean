import Verif.Lists
/-!
Model of the objects that hold a value and of the conversions: `HvControlVar.c`, `HvControlIf.c`, `HvControlCast.c`,
`HvControlUnop.c` (hvcc/generators/ir2c/static).
-/
namespace Verif.Stored
open Verif.Msg (R Err Val)
open Verif.Lists (Msg Out hashElem)

/-- `cVar_onMessage`, HvControlVar.c:35-83: the stored element is a float or a hash (`o->e`) -/
def varMsg (e : Val) (letIn : Nat) (m : Msg) : R (Val × List Out) :=
  match letIn with
  | 0 => do
    match ← m.elem 0 with
    | .bang =>
      match e with
      | .float f => .ok (e, [(0, ⟨m.ts, [.float f]⟩)])
      | .hash h => .ok (e, [(0, ⟨m.ts, [.hash h]⟩)])
      | _ => .ok (e, [])
    | .float f => .ok (.float f, [(0, m)])
    | .sym s => .ok (.hash (hashElem (.sym s)), [(0, m)])
    | .hash h => .ok (.hash h, [(0, m)])
  | 1 => do
    match ← m.elem 0 with
    | .bang => .ok (e, [])
    | .float f => .ok (.float f, [])
    | .sym s => .ok (.hash (hashElem (.sym s)), [])
    | .hash h => .ok (.hash h, [])
  | _ => .ok (e, [])

/-- `f != 0.0f` of a bit pattern -/
def nonzero (f : BitVec 32) : Bool := !Msg.feq f 0#32

/-- `cIf_onMessage`, HvControlIf.c:24-41 -/
def ifMsg (k : Bool) (letIn : Nat) (m : Msg) : R (Bool × List Out) :=
  match letIn with
  | 0 => .ok (k, [((if k then 1 else 0), m)])
  | 1 =>
    match m.float? 0 with
    | some f => .ok (nonzero f, [])
    | none => .ok (k, [])
  | _ => .ok (k, [])

/-- `CastType`, HvControlCast.h -/
inductive Cast
  | bang | float | symbol
  deriving DecidableEq, Repr

/-- the characters of a C string literal -/
def lit (s : List Nat) : Val := .sym (s.map (BitVec.ofNat 8))
/-- `"bang"` -/
def litBang : Val := lit [98, 97, 110, 103]
/-- `"float"` -/
def litFloat : Val := lit [102, 108, 111, 97, 116]

/-- `cCast_onMessage`, HvControlCast.c:19-60 -/
def castMsg (c : Cast) (m : Msg) : R (List Out) :=
  match c with
  | .bang => .ok [(0, ⟨m.ts, [.bang]⟩)]
  | .float =>
    match m.float? 0 with
    | some f => .ok [(0, ⟨m.ts, [.float f]⟩)]
    | none => .ok []
  | .symbol => do
    match ← m.elem 0 with
    | .bang => .ok [(0, ⟨m.ts, [litBang]⟩)]
    | .float _ => .ok [(0, ⟨m.ts, [litFloat]⟩)]
    | .sym _ => .ok [(0, m)]
    | .hash _ => .ok []

/-- `UnopType`, HvControlUnop.h:26-48 -/
inductive Unop
  | sin | sinh | cos | cosh | tan | tanh | asin | asinh | acos | acosh | atan | atanh | exp | abs
  | sqrt | log | log2 | log10 | ceil | floor | round
  deriving DecidableEq, Repr

/-- the library functions, and the two scalings of `log`, on bit patterns: parameters -/
structure Lib where
  f : Unop → BitVec 32 → BitVec 32

/-- `f > 0.0f` of a bit pattern -/
def positive (f : BitVec 32) : Bool := !Msg.isNaN f && !f.msb && f != 0#32

/-- `cUnop_onMessage`, HvControlUnop.c:19-51 -/
def unopMsg (L : Lib) (op : Unop) (m : Msg) : List Out :=
  match m.float? 0 with
  | some f =>
    let r := match op with
      | .sqrt => if positive f then L.f .sqrt f else 0#32
      | .log => if positive f then L.f .log f else 0#32
      | .log2 => if positive f then L.f .log2 f else 0#32
      | .log10 => if positive f then L.f .log10 f else 0#32
      | op => L.f op f
    [(0, ⟨m.ts, [.float r]⟩)]
  | none => []

end Verif.Stored
