import Verif.ReduceGraph
import Mathlib.Algebra.Field.Basic
import Mathlib.Algebra.BigOperators.Group.Multiset.Basic
import Mathlib.Tactic.Ring
/-!
# C58: the operators of a patch compute in the generated program what they compute in the patch

Specification.  The signals of a patch are the functions `v` (object, outlet, sample number) that satisfy the equation of every
object: a signal inlet gets the sum of the signals connected to it; the inlet of an arithmetic object that gets no signal holds
the last number that was sent to it, at first its argument; every other object computes some function of the signals and the
messages that arrive at its inlets.  `log t` is the list of all messages sent until sample `t`: object, outlet, message.
-/
namespace Verif.Reduce

variable {α μ : Type}

/-! ### specification: what a graph computes -/

/-- a message is sent from an outlet -/
structure Sent (μ : Type) where
  src : Nat
  outlet : Nat
  msg : μ

/-- what the objects compute: the operators other than `+ - * /`, the functions of one signal, the number in a message, and
all other objects (object; signal at inlet and time; messages at inlet until time; outlet; time) -/
structure World (α μ : Type) where
  bin : String → α → α → α
  un : String → α → α
  num : μ → Option α
  beh : Nat → (Nat → Nat → α) → (Nat → Nat → List μ) → Nat → Nat → α
  /-- does the second object (which receives) run before the first one (which sends)? -/
  late : Nat → Nat → Bool
  /-- the number of samples computed at a time -/
  block : Nat

/-- the operator of a patch -/
def World.op [Field α] (W : World α μ) (name : String) (a b : α) : α :=
  if name = "+" then a + b else if name = "-" then a - b else if name = "*" then a * b else if name = "/" then a / b
  else W.bin name a b

/-- the function of one signal -/
def World.fn [Field α] (W : World α μ) (name : String) (a : α) : α := if name = "neg" then -a else W.un name a

/-- what the HeavyIR objects with two signal inlets compute -/
def irOp : String → String
  | "__add~f" => "+" | "__sub~f" => "-" | "__mul~f" => "*" | "__div~f" => "/"
  | "__max~f" => "max" | "__min~f" => "min" | "__gt~f" => ">" | "__gte~f" => ">=" | "__eq~f" => "==" | "__neq~f" => "!="
  | "__lt~f" => "<" | "__lte~f" => "<=" | "__and~f" => "&" | "__andnot~f" => "&!" | "__or~f" => "|" | "__pow~f" => "pow"
  | "__atan2~f" => "atan2" | _ => ""

/-- what the HeavyIR objects with two control inlets compute (the operators of C45) -/
def irOpC : String → String
  | "__add" | "__add_k" => "+" | "__sub" | "__sub_k" => "-" | "__mul" | "__mul_k" => "*" | "__div" | "__div_k" => "/"
  | "__max" | "__max_k" => "max" | "__min" | "__min_k" => "min" | "__gt" | "__gt_k" => ">" | "__gte" | "__gte_k" => ">="
  | "__eq" | "__eq_k" => "==" | "__neq" | "__neq_k" => "!=" | "__lt" | "__lt_k" => "<" | "__lte" | "__lte_k" => "<="
  | "__and" | "__and_k" => "&" | "__logand" | "__logand_k" => "&&" | "__andnot" => "&!" | "__or" | "__or_k" => "|"
  | "__logor" | "__logor_k" => "||" | "__pow" | "__pow_k" => "pow" | "__atan2" | "__atan2_k" => "atan2"
  | "__unimod" | "__unimod_k" => "mod" | "__bimod" | "__bimod_k" => "%" | "__shiftright" | "__shiftright_k" => ">>"
  | "__shiftleft" | "__shiftleft_k" => "<<" | _ => ""

/-- what the HeavyIR objects with one signal inlet compute -/
def irFn : String → String
  | "__neg~f" => "neg" | "__log2~f" => "log2" | "__cos~f" => "cos" | "__acos~f" => "acos" | "__cosh~f" => "cosh"
  | "__acosh~f" => "acosh" | "__sin~f" => "sin" | "__asin~f" => "asin" | "__sinh~f" => "sinh" | "__tan~f" => "tan"
  | "__atan~f" => "atan" | "__tanh~f" => "tanh" | "__atanh~f" => "atanh" | "__exp~f" => "exp" | "__sqrt~f" => "sqrt"
  | "__abs~f" => "abs" | "__floor~f" => "floor" | "__ceil~f" => "ceil" | _ => ""

/-- the sum of the signals that arrive through a list of connections -/
def inSum [AddCommMonoid α] (v : Nat → Nat → Nat → α) (l : List Conn) (t : Nat) : α :=
  ((l.filter (·.ty = .f)).map fun c => v c.src c.outlet t).sum

/-- the messages that arrive through a list of connections -/
def received (log : List (Sent μ)) (l : List Conn) : List μ :=
  log.flatMap fun e => List.replicate (l.countP fun c => c.ty = .c ∧ c.src = e.src ∧ c.outlet = e.outlet) e.msg

/-- the last number received, at first `k` -/
def held (W : World α μ) (k : α) (ms : List μ) : α := ((ms.filterMap W.num).getLast?).getD k

/-- does a signal arrive? -/
def hasSignal (l : List Conn) : Bool := l.any (·.ty = .f)

/-- an inlet of an arithmetic signal object -/
def operand [AddCommMonoid α] (W : World α μ) (v : Nat → Nat → Nat → α) (log : Nat → List (Sent μ)) (k : α) (l : List Conn)
    (t : Nat) : α :=
  if hasSignal l then inSum v l t else held W k (received (log t) l)

/-- the signal `x` that `s` sends, as `r` receives it: one block late if `r` runs first -/
def lagged [Zero α] (W : World α μ) (s r : Nat) (x : Nat → α) (t : Nat) : α :=
  if W.late s r then (if t < W.block then 0 else x (t - W.block)) else x t

/-- does the object send under this name? -/
def Kind.sends (name : String) : Kind α → Bool
  | .send m => m = name
  | _ => false

/-- the objects that send under a name -/
def Graph.senders (g : Graph α) (name : String) : List Nat := g.ids.filter fun s => (g.kind s).sends name

/-- the equation of one object -/
def Obeys [Field α] (W : World α μ) (g : Graph α) (log : Nat → List (Sent μ)) (v : Nat → Nat → Nat → α) (o : Nat) : Prop :=
  match g.kind o with
  | .binop op k => hasSignal (g.ins o 0) ∨ hasSignal (g.ins o 1) →
      ∀ t, v o 0 t = W.op op (operand W v log 0 (g.ins o 0) t) (operand W v log k (g.ins o 1) t)
  | .unop op => hasSignal (g.ins o 0) → ∀ t, v o 0 t = W.fn op (inSum v (g.ins o 0) t)
  | .var k => ∀ t, v o 0 t = held W k (received (log t) (g.ins o 0))
  | .irBin name => ∀ t, v o 0 t = W.op (irOp name) (inSum v (g.ins o 0) t) (inSum v (g.ins o 1) t)
  | .irUn name => ∀ t, v o 0 t = W.fn (irFn name) (inSum v (g.ins o 0) t)
  | .varK k => ∀ t, v o 0 t = k
  | .varRead y => (∃ k, g.kind y = .varS k ∧ ∀ t, v o 0 t = held W k (received (log t) (g.ins y 0))) ∨
      ∃ w ∈ g.ids, g.kind w = .varWrite y ∧ g.kind y = .varSig ∧ ∀ t, v o 0 t = lagged W w o (inSum v (g.ins w 0)) t
  | .receive name => ∀ t, v o 0 t = ((g.senders name).map fun s => lagged W s o (inSum v (g.ins s 0)) t).sum
  | .irBinC .. | .irUnC .. | .varS .. | .varC .. | .send .. | .varSig | .varWrite .. => True
  | .other _ => ∀ j t, v o j t = W.beh o (fun i t => inSum v (g.ins o i) t) (fun i t => received (log t) (g.ins o i)) j t

/-- the signals of a graph -/
def Solves [Field α] (W : World α μ) (g : Graph α) (log : Nat → List (Sent μ)) (v : Nat → Nat → Nat → α) : Prop :=
  ∀ o ∈ g.ids, Obeys W g log v o

/-- the messages of an object are those of the object that takes its place -/
def rename (ρ : Nat → Nat) (log : Nat → List (Sent μ)) (t : Nat) : List (Sent μ) :=
  (log t).map fun e => { e with src := ρ e.src }

/-- what the HeavyIR objects with one control inlet compute -/
def irFnC : String → String
  | "__log" => "log" | "__log10" => "log10" | "__log2" => "log2" | "__cos" => "cos" | "__acos" => "acos" | "__cosh" => "cosh"
  | "__acosh" => "acosh" | "__sin" => "sin" | "__asin" => "asin" | "__sinh" => "sinh" | "__asinh" => "asinh" | "__tan" => "tan"
  | "__atan" => "atan" | "__tanh" => "tanh" | "__atanh" => "atanh" | "__exp" => "exp" | "__sqrt" => "sqrt"
  | "__abs" => "abs" | "__floor" => "floor" | "__ceil" => "ceil" | _ => ""

/-! ### specification: control -/

/-- an operator without effect: nothing is connected to its outlet but such operators -/
inductive Dead (g : Graph α) : Nat → Prop
  | mk (d : Nat) (op : String) (k : α) : g.kind d = .binop op k → (∀ c ∈ g.outs d 0, Dead g c.dst) → Dead g d

/-- an object without signal connections -/
def Quiet (g : Graph α) (d : Nat) : Prop := (∀ i, hasSignal (g.ins d i) = false) ∧ ∀ j, hasSignal (g.outs d j) = false

/-- the second object computes on messages what the first does -/
def Stands : Kind α → Kind α → Prop
  | .binop op k, .irBinC name k' => irOpC name = op ∧ k' = k
  | .unop op, .irUnC name => irFnC name = op
  | .var k, .varC k' => k' = k
  | _, _ => False

/-- the signals at the outlets of the other objects, and all that arrives at their inlets, are the same -/
def Agree [AddCommMonoid α] (g g' : Graph α) (ρ : Nat → Nat) (log : Nat → List (Sent μ)) (v v' : Nat → Nat → Nat → α) : Prop :=
  ∀ p ∈ g.ids, (g.kind p).lang = false → (∀ j t, v' p j t = v p j t) ∧
    ∀ i t, inSum v' (g'.ins p i) t = inSum v (g.ins p i) t ∧ received (rename ρ log t) (g'.ins p i) = received (log t) (g.ins p i)

/-- what `g'` has to do with `g` when some operators have been replaced.  The object `ρ p` sends the messages that `p` sent;
the message connection `c` has become `δ c`. -/
structure Sim [Field α] (W : World α μ) (g g' : Graph α) (n n' : Nat) (ρ : Nat → Nat) (δ : Conn → Option Conn) : Prop where
  le : n ≤ n'
  bound : ∀ p < n, ρ p < n'
  gone : ∀ p < n, p ∉ g.ids → ρ p ∉ g'.ids
  /-- the other objects are there, unchanged -/
  keep : ∀ p ∈ g.ids, (g.kind p).lang = false → p ∈ g'.ids ∧ g'.kind p = g.kind p ∧ ρ p = p
  dead : ∀ d ∈ g'.ids, Dead g' d → d ∈ g.ids ∧ Dead g d
  /-- an operator on messages is without effect, or still there, or another object computes the same -/
  quiet : ∀ d ∈ g.ids, (g.kind d).lang → Quiet g d → (ρ d ∉ g'.ids ∧ Dead g d) ∨
    (ρ d ∈ g'.ids ∧ ((g'.kind d = g.kind d ∧ ρ d = d ∧ Quiet g' d) ∨ Stands (g.kind d) (g'.kind (ρ d))))
  /-- messages go the same ways in the same order -/
  order : ∀ p < n, ∀ j, ctl (g'.outs (ρ p) j) = (ctl (g.outs p j)).filterMap δ
  moved : ∀ p < n, ∀ j, ∀ c ∈ ctl (g.outs p j), (δ c = none → Dead g c.dst) ∧
    ∀ c', δ c = some c' → (c'.dst = c.dst ∨ (g'.kind c'.dst).lang = false) ∧
      ((g.kind c.dst).lang = false ∨ Quiet g c.dst → c'.dst = ρ c.dst ∧ c'.inlet = c.inlet)
  /-- signals are the same -/
  signals : ∀ log : Nat → List (Sent μ), (∀ t, ∀ e ∈ log t, e.src < n) →
    (∀ v, Solves W g log v → ∃ v', Solves W g' (rename ρ log) v' ∧ Agree g g' ρ log v v') ∧
    ∀ v', Solves W g' (rename ρ log) v' → ∃ v, Solves W g log v ∧ Agree g g' ρ log v v'

/-! ### which patches -/

/-- a binary operator that can be compiled: its inlet formats `l`, `r` and outlet format `s`.  Excluded is only a
multiplication by the constant 0. -/
def FitsBinop [DecidableEq α] [Zero α] (op : String) (k : α) (l r s : Char) : Prop :=
  (s = 'f' ∧ (binName op "~f").isSome ∧
    ((l = 'f' ∧ (r = 'f' ∨ r = 'c' ∨ (r = '_' ∧ ¬ (op = "*" ∧ k = 0)))) ∨ (l = 'c' ∧ r = 'f'))) ∨
  (s = 'c' ∧ l = 'c' ∧ ((r = 'c' ∧ (binDict op).isSome) ∨ (r = '_' ∧ (binName op "_k").isSome)))

/-- an object that can be compiled -/
def Fits [DecidableEq α] [Zero α] (g : Graph α) (o : Nat) : Prop :=
  match g.kind o with
  | .binop op k => fmt (g.outs o 0) = '_' ∨ FitsBinop op k (fmt (g.ins o 0)) (fmt (g.ins o 1)) (fmt (g.outs o 0))
  | .unop op => (fmt (g.ins o 0) = 'f' ∧ (unName op "~f").isSome) ∨
      (fmt (g.ins o 0) = 'c' ∧ (unName op "").isSome ∧ (fmt (g.outs o 0) = '_' ∨ fmt (g.outs o 0) = 'c'))
  | .var _ => (fmt (g.ins o 0) = '_' ∨ fmt (g.ins o 0) = 'c') ∧
      (fmt (g.outs o 0) = '_' ∨ fmt (g.outs o 0) = 'c' ∨ fmt (g.outs o 0) = 'f')
  | _ => True

/-- which connections may leave and enter an object that is not an operator: object, outlet or inlet, type -/
structure Typing where
  src : Nat → Nat → Ty → Prop
  dst : Nat → Nat → Ty → Prop
  /-- where objects may be that neither `reduce` nor `remap_send_receive` makes -/
  here : Nat → Prop
  /-- are there no loops of connections at all? -/
  loopless : Prop

/-- an object that `reduce` may make -/
def Kind.made : Kind α → Bool
  | .send _ | .receive _ | .varSig | .varWrite _ | .other _ => false
  | _ => true

/-- an object that neither `reduce` nor `remap_send_receive` makes -/
def Kind.foreign : Kind α → Bool
  | .send _ | .receive _ | .other _ => true
  | _ => false

/-- may a connection of this type leave the outlet `j` of the object `p`? (outlets in heavy.ir.json; operators: see `Fits`) -/
def Kind.src (τ : Typing) (p j : Nat) (ty : Ty) : Kind α → Prop
  | .other _ => τ.src p j ty
  | .irBin _ | .irUn _ | .varK _ | .varRead _ => j = 0 ∧ ty = .f
  | .irBinC .. | .irUnC _ | .varC _ => j = 0 ∧ ty = .c
  | .receive _ => j = 0 ∧ ty = .f
  | .varS _ | .varSig | .varWrite _ | .send _ => False
  | _ => True

/-- may a connection of this type enter the inlet `i` of the object `p`? (inlets in heavy.ir.json; operators: see `Fits`) -/
def Kind.dst (τ : Typing) (p i : Nat) (ty : Ty) : Kind α → Prop
  | .other _ => τ.dst p i ty
  | .irBin _ => i < 2 ∧ ty = .f
  | .irUn _ => i = 0 ∧ ty = .f
  | .irBinC .. => i < 2 ∧ ty = .c
  | .irUnC _ | .varC _ | .varS _ => i = 0 ∧ ty = .c
  | .send _ | .varWrite _ => i = 0 ∧ ty = .f
  | .varK _ | .varRead _ | .varSig | .receive _ => False
  | _ => True

/-- a graph with the connections `M`, numbers from `n` on unused, no loop of signals, that can be compiled; if `T` is
given, the connections are as it says and no signal is on a loop of connections, signal or control -/
structure ReadyT [DecidableEq α] [Zero α] (T : Option Typing) (g : Graph α) (n : Nat) (M : Multiset Conn) : Prop where
  wired : Wired g M
  nodup : g.ids.Nodup
  below : ∀ o ∈ g.ids, o < n
  ends : ∀ c ∈ M, c.src ∈ g.ids ∧ c.dst ∈ g.ids
  loop : ∀ c ∈ M, c.src ≠ c.dst
  floats : ∀ c ∈ M, c.ty ≠ .i
  rank : ∃ rk : Nat → Int, ∀ c ∈ M, (c.ty = .f → rk c.src < rk c.dst) ∧ (T.isSome → rk c.src ≤ rk c.dst) ∧
    ∀ τ, T = some τ → τ.loopless → rk c.src < rk c.dst
  reads : ∀ o ∈ g.ids, ∀ y, g.kind o = .varRead y → y ∈ g.ids ∧
    ((∃ k, g.kind y = .varS k) ∨ (g.kind y = .varSig ∧ ∃ w ∈ g.ids, g.kind w = .varWrite y))
  lets : ∀ o ∈ g.ids, (g.kind o).lang → Lets M o (g.kind o).numInlets
  fits : ∀ o ∈ g.ids, Fits g o
  typed : ∀ τ, T = some τ →
    (∀ c ∈ M, (g.kind c.src).src τ c.src c.outlet c.ty ∧ (g.kind c.dst).dst τ c.dst c.inlet c.ty) ∧
    (∀ o ∈ g.ids, (g.kind o).foreign → τ.here o) ∧
    (∀ o ∈ g.ids, ∀ op, g.kind o = .unop op → fmt (g.ins o 0) = 'f' → ∀ c ∈ M, c.src = o → c.ty = .f) ∧
    ∀ w ∈ g.ids, ∀ w' ∈ g.ids, ∀ y, g.kind w = .varWrite y → g.kind w' = .varWrite y → w = w'

/-- a graph with the connections `M`, numbers from `n` on unused, no loop of signals, that can be compiled -/
abbrev Ready [DecidableEq α] [Zero α] (g : Graph α) (n : Nat) (M : Multiset Conn) : Prop := ReadyT none g n M

/-! ### lists of connections that are the same up to the ends -/

/-- `l'` holds the connections of `l`, changed by `r`, which keeps the types -/
structure Same (r : Conn → Conn) (l l' : List Conn) : Prop where
  coe : (l' : Multiset Conn) = (l : Multiset Conn).map r
  ty : ∀ c ∈ l, (r c).ty = c.ty

theorem Same.perm {r : Conn → Conn} {l l' : List Conn} (h : Same r l l') : l'.Perm (l.map r) := by
  have := h.coe
  rwa [Multiset.map_coe, Multiset.coe_eq_coe] at this

theorem Same.any {r : Conn → Conn} {l l' : List Conn} (h : Same r l l') (x : Ty) :
    (l'.any fun c => c.ty = x) = l.any fun c => c.ty = x := by
  rw [Bool.eq_iff_iff, List.any_eq_true, List.any_eq_true]
  constructor
  · rintro ⟨c, hc, hx⟩
    obtain ⟨d, hd, rfl⟩ := List.mem_map.1 (h.perm.subset hc)
    exact ⟨d, hd, by rw [← h.ty d hd]; exact hx⟩
  · rintro ⟨c, hc, hx⟩
    exact ⟨r c, h.perm.symm.subset (List.mem_map_of_mem hc), by rw [h.ty c hc]; exact hx⟩

theorem Same.all {r : Conn → Conn} {l l' : List Conn} (h : Same r l l') (x : Ty) :
    (l'.all fun c => c.ty = x) = l.all fun c => c.ty = x := by
  rw [Bool.eq_iff_iff, List.all_eq_true, List.all_eq_true]
  constructor
  · intro H c hc
    have := H (r c) (h.perm.symm.subset (List.mem_map_of_mem hc))
    rwa [h.ty c hc] at this
  · intro H c hc
    obtain ⟨d, hd, rfl⟩ := List.mem_map.1 (h.perm.subset hc)
    rw [h.ty d hd]; exact H d hd

theorem Same.nil {r : Conn → Conn} {l l' : List Conn} (h : Same r l l') : l' = [] ↔ l = [] := by
  have := h.perm.length_eq
  rw [List.length_map] at this
  rw [← List.length_eq_zero_iff, ← List.length_eq_zero_iff, this]

theorem Same.fmt {r : Conn → Conn} {l l' : List Conn} (h : Same r l l') : fmt l' = fmt l := by
  unfold Reduce.fmt
  simp only [h.all, h.nil]

theorem Same.hasSignal {r : Conn → Conn} {l l' : List Conn} (h : Same r l l') : hasSignal l' = hasSignal l := h.any .f

theorem Same.inSum [AddCommMonoid α] {r : Conn → Conn} {l l' : List Conn} (h : Same r l l') {v v' : Nat → Nat → Nat → α} {t : Nat}
    (hv : ∀ c ∈ l, c.ty = .f → v' (r c).src (r c).outlet t = v c.src c.outlet t) : inSum v' l' t = inSum v l t := by
  unfold Reduce.inSum
  rw [(((h.perm.filter _).map _).sum_eq)]
  have ht := h.ty
  clear h
  induction l with
  | nil => rfl
  | cons c l ih =>
    have i := ih (fun d hd => hv d (List.mem_cons_of_mem _ hd)) (fun d hd => ht d (List.mem_cons_of_mem _ hd))
    have hc := ht c (by simp)
    by_cases h : c.ty = .f
    · simp only [List.map_cons, List.filter_cons, hc, h, decide_true, if_true, List.sum_cons, i, hv c (by simp) h]
    · simp only [List.map_cons, List.filter_cons, hc, h, decide_false, Bool.false_eq_true, if_false, i]

theorem Same.received {r : Conn → Conn} {l l' : List Conn} (h : Same r l l') {ρ : Nat → Nat} {log : Nat → List (Sent μ)} {t : Nat}
    (hr : ∀ e ∈ log t, ∀ c ∈ l, c.ty = .c →
      ((r c).src = ρ e.src ∧ (r c).outlet = e.outlet ↔ c.src = e.src ∧ c.outlet = e.outlet)) :
    received (rename ρ log t) l' = received (log t) l := by
  unfold Reduce.received rename
  rw [List.flatMap_map]
  refine List.flatMap_congr fun e he => ?_
  congr 1
  rw [h.perm.countP_eq, List.countP_map]
  refine List.countP_congr fun c hc => ?_
  simp only [Function.comp, h.ty c hc, decide_eq_true_eq]
  constructor
  · rintro ⟨h1, h2⟩; exact ⟨h1, (hr e he c hc h1).1 h2⟩
  · rintro ⟨h1, h2⟩; exact ⟨h1, (hr e he c hc h1).2 h2⟩

end Verif.Reduce
