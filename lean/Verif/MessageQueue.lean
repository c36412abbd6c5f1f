/-
Model of `hvcc/generators/ir2c/static/HvMessageQueue.c` / `HvMessageQueue.h`, at the level of the
doubly linked list: nodes live in a heap indexed by addresses, `NULL` is `none`, and following a
`NULL` pointer makes the function fail (`none`).

Simplifications:
* a pooled message (`HvMessage *`) is represented by its address `id` together with its timestamp;
  the memory of the messages themselves is the subject of `MessagePool.lean`/`Message.lean`.  The
  calls `mp_addMessage`/`mp_freeMessage` therefore do not appear: the address that `mp_addMessage`
  returns is passed in as `Item.id`.
* `malloc` always succeeds and returns a new address (`fresh`);
* function pointers (`sendMessage`) are numbers, `none` for `NULL`.
* C loops carry a fuel argument; running out of fuel is a failure (`none`), so a successful result
  means that the loop terminates.
-/
namespace Verif.MQ

/-- payload of a `MessageNode`: `m` (address and timestamp), `let`, `sendMessage`;
HvMessageQueue.h:33-39 -/
structure Item where
  id : Nat
  ts : Nat
  inlet : Nat
  send : Nat
  deriving DecidableEq, Repr

/-- `struct MessageNode`, HvMessageQueue.h:33-39. `item = none` is the state of a node in the pool
(`m = NULL`). -/
structure Node where
  prev : Option Nat
  next : Option Nat
  item : Option Item
  deriving DecidableEq, Repr

abbrev Heap := Nat → Node

/-- store a whole node -/
def Heap.set (h : Heap) (a : Nat) (n : Node) : Heap := fun i => if i = a then n else h i
/-- `a->next = v` -/
def Heap.setNext (h : Heap) (a : Nat) (v : Option Nat) : Heap := h.set a { h a with next := v }
/-- `a->prev = v` -/
def Heap.setPrev (h : Heap) (a : Nat) (v : Option Nat) : Heap := h.set a { h a with prev := v }
/-- `a->m = …; a->let = …; a->sendMessage = …` -/
def Heap.setItem (h : Heap) (a : Nat) (v : Option Item) : Heap := h.set a { h a with item := v }

/-- `struct HvMessageQueue`, HvMessageQueue.h:42-47, with the heap it lives in. -/
structure Q where
  h : Heap
  head : Option Nat
  tail : Option Nat
  pool : Option Nat
  fresh : Nat

/-- `mq_initWithPoolSize`, HvMessageQueue.c:19-25 -/
def init (h : Heap) : Q := { h := h, head := none, tail := none, pool := none, fresh := 0 }

/-- `mq_getOrCreateNodeFromPool`, HvMessageQueue.c:37-47 -/
def getNode (q : Q) : Nat × Q :=
  match q.pool with
  | none => (q.fresh, { q with h := q.h.setNext q.fresh none, pool := none, fresh := q.fresh + 1 })
  | some a => (a, { q with pool := (q.h a).next })

/-- `mq_addMessage`, HvMessageQueue.c:59-80 -/
def addMessage (q : Q) (x : Item) : Q :=
  let (a, q) := getNode q
  let h := ((q.h.setItem a (some x)).setPrev a none).setNext a none
  match q.tail with
  | some t =>
    let h := (h.setNext t (some a)).setPrev a (some t)
    { q with h := h, tail := some a }
  | none =>
    { q with h := h.setPrev a none, head := some a, tail := some a }

/-- timestamp of the message stored in node `a` (`msg_getTimestamp(a->m)`); fails if `m` is NULL -/
def tsOf (h : Heap) (a : Nat) : Option Nat := (h a).item.map (·.ts)

/-- the loop of `mq_addMessageByTimestamp`, HvMessageQueue.c:104-115: finds the node after which to
insert -/
def findSlot (h : Heap) (t : Nat) : Nat → Option Nat → Option Nat
  | 0, _ => none
  | _ + 1, none => none
  | fuel + 1, some node => do
    let r ← (h node).next
    let tr ← tsOf h r
    if t < tr then some node else findSlot h t fuel (some r)

/-- `mq_addMessageByTimestamp`, HvMessageQueue.c:82-122 -/
def addByTimestamp (q : Q) (x : Item) : Option Q :=
  match q.head with
  | none => some (addMessage q x)
  | some _ => do
    let (n, q) := getNode q
    let h := q.h.setItem n (some x)
    let hd ← q.head
    let tl ← q.tail
    let thd ← tsOf h hd
    let ttl ← tsOf h tl
    if x.ts < thd then
      let h := ((h.setNext n (some hd)).setPrev hd (some n)).setPrev n none
      some { q with h := h, head := some n }
    else if x.ts ≥ ttl then
      let h := ((h.setNext n none).setPrev n (some tl)).setNext tl (some n)
      some { q with h := h, tail := some n }
    else do
      let node ← findSlot h x.ts (q.fresh + 1) (some hd)
      let r ← (h node).next
      let h := (((h.setNext node (some n)).setNext n (some r)).setPrev n (some node)).setPrev r (some n)
      some { q with h := h }

/-- `mq_pop`, HvMessageQueue.c:124-144 -/
def pop (q : Q) : Q :=
  match q.head with
  | none => q
  | some n =>
    let h := q.h.setItem n none
    match (h n).next with
    | none =>
      { q with h := (h.setNext n q.pool).setPrev n none, head := none, tail := none, pool := some n }
    | some hd =>
      { q with h := ((h.setPrev hd none).setNext n q.pool).setPrev n none, head := some hd,
               pool := some n }

/-- the search loop of `mq_removeMessage`, HvMessageQueue.c:156-161: returns `(prevNode, currNode)` -/
def findMsg (h : Heap) (m : Nat) : Nat → Nat → Option Nat → Option (Nat × Option Nat)
  | 0, _, _ => none
  | _ + 1, prv, none => some (prv, none)
  | fuel + 1, prv, some c =>
    if (h c).item.map (·.id) = some m then some (prv, some c)
    else findMsg h m fuel c (h c).next

/-- `mq_removeMessage`, HvMessageQueue.c:146-184; `send = none` models a NULL `sendMessage`. -/
def removeMessage (q : Q) (m : Nat) (send : Option Nat) : Option (Bool × Q) :=
  match q.head with
  | none => some (false, q)
  | some hd =>
    if (q.h hd).item.map (·.id) = some m then
      if send = none ∨ (q.h hd).item.map (·.send) = send then some (true, pop q)
      else some (false, q)
    else do
      let (prv, curr) ← findMsg q.h m (q.fresh + 1) hd (q.h hd).next
      match curr with
      | none => some (false, q)
      | some c =>
        if send = none ∨ (q.h c).item.map (·.send) = send then
          let h := q.h.setItem c none
          if some c = q.tail then
            let h := h.setNext prv none
            some (true, { q with h := (h.setNext c q.pool).setPrev c none, tail := some prv,
                                 pool := some c })
          else do
            let nx ← (h c).next
            let h := (h.setNext prv (some nx)).setPrev nx (some prv)
            some (true, { q with h := (h.setNext c q.pool).setPrev c none, pool := some c })
        else some (false, q)

/-- `mq_clear`, HvMessageQueue.c:186-190 (with fuel) -/
def clear : Nat → Q → Option Q
  | 0, _ => none
  | fuel + 1, q => match q.head with
    | none => some q
    | some _ => clear fuel (pop q)

/-- the loop of `mq_clearAfter`, HvMessageQueue.c:193-212 (with fuel) -/
def clearAfterLoop (t : Nat) : Nat → Q → Option Q
  | 0, _ => none
  | fuel + 1, q => match q.tail with
    | none => some q
    | some n => do
      let tn ← tsOf q.h n
      if t ≤ tn then
        let h := q.h.setItem n none
        let tail := (h n).prev
        let h := (h.setNext n q.pool).setPrev n none
        let h := match q.pool with
          | none => h
          | some p => h.setPrev p (some n)
        clearAfterLoop t fuel { q with h := h, tail := tail, pool := some n }
      else some q

/-- `mq_clearAfter`, HvMessageQueue.c:192-215 -/
def clearAfter (q : Q) (t : Nat) : Option Q := do
  let q ← clearAfterLoop t (q.fresh + 1) q
  if q.tail = none then some { q with head := none } else some q

/-- `mq_hasMessageBefore`, HvMessageQueue.h:67-70; fails on a NULL message -/
def hasMessageBefore (q : Q) (t : Nat) : Option Bool :=
  match q.head with
  | none => some false
  | some a => do
    let ts ← tsOf q.h a
    some (decide (ts < t))

/-- forward traversal as in `mq_size` (HvMessageQueue.c:49-57), collecting the items; fails when the
list does not end within `fuel` nodes or contains a node without message. -/
def toListFrom (h : Heap) : Nat → Option Nat → Option (List Item)
  | _, none => some []
  | 0, some _ => none
  | fuel + 1, some a => do
    let x ← (h a).item
    let xs ← toListFrom h fuel (h a).next
    some (x :: xs)

/-- the messages of the queue in order (every message, reached from `head` through `next`) -/
def toList (q : Q) : Option (List Item) := toListFrom q.h (q.fresh + 1) q.head

/-- the messages of the queue from `tail` through `prev` -/
def toListBackFrom (h : Heap) : Nat → Option Nat → Option (List Item)
  | _, none => some []
  | 0, some _ => none
  | fuel + 1, some a => do
    let x ← (h a).item
    let xs ← toListBackFrom h fuel (h a).prev
    some (x :: xs)

def toListBack (q : Q) : Option (List Item) := toListBackFrom q.h (q.fresh + 1) q.tail

/-- `mq_size`, HvMessageQueue.c:49-57 -/
def sizeFrom (h : Heap) : Nat → Option Nat → Option Nat
  | _, none => some 0
  | 0, some _ => none
  | fuel + 1, some a => (sizeFrom h fuel (h a).next).map (· + 1)

def size (q : Q) : Option Nat := sizeFrom q.h (q.fresh + 1) q.head

/-- `mq_peek` (HvMessageQueue.h:72-74) followed by reading the node -/
def peek (q : Q) : Option Item := q.head.bind fun a => (q.h a).item

/-- addresses of the nodes reached from `start` through `next` -/
def nodesFrom (h : Heap) : Nat → Option Nat → Option (List Nat)
  | _, none => some []
  | 0, some _ => none
  | fuel + 1, some a => (nodesFrom h fuel (h a).next).map (a :: ·)

/-- the nodes in the queue -/
def queueNodes (q : Q) : Option (List Nat) := nodesFrom q.h (q.fresh + 1) q.head
/-- the nodes in the free pool; the loop of `mq_free` (HvMessageQueue.c:27-35) visits (and frees)
exactly these -/
def poolNodes (q : Q) : Option (List Nat) := nodesFrom q.h (q.fresh + 1) q.pool

/-- `mq_free`, HvMessageQueue.c:27-35: clears the queue and returns the nodes passed to `hv_free`,
in order.  (`mp_free` is not modelled here.) -/
def mqFree (q : Q) : Option (List Nat) := (clear (q.fresh + 1) q).bind poolNodes

/-- the functions of the queue, as operations -/
inductive Op
  | add (x : Item)            -- `mq_addMessage`
  | addTs (x : Item)          -- `mq_addMessageByTimestamp`
  | pop                       -- `mq_peek` and `mq_pop`
  | remove (m : Nat) (send : Option Nat)   -- `mq_removeMessage`
  | clear                     -- `mq_clear`
  deriving DecidableEq, Repr

/-- what the caller sees -/
inductive Out
  | unit
  | popped (x : Option Item)
  | removed (b : Bool)
  deriving DecidableEq, Repr

/-- one call on the pointer structure; `none` means that a `NULL` pointer was followed -/
def step (q : Q) : Op → Option (Out × Q)
  | .add x => some (.unit, addMessage q x)
  | .addTs x => (addByTimestamp q x).map fun q => (.unit, q)
  | .pop => some (.popped (peek q), pop q)
  | .remove m s => (removeMessage q m s).map fun (b, q) => (.removed b, q)
  | .clear => (clear (q.fresh + 1) q).map fun q => (.unit, q)

/-- a history of calls, with the outputs -/
def run (q : Q) : List Op → Option (List Out × Q)
  | [] => some ([], q)
  | op :: ops => do
    let (o, q) ← step q op
    let (os, q) ← run q ops
    some (o :: os, q)

/-! ### The abstract queue: a list of items -/

/-- position search of `mq_addMessageByTimestamp` as a list function -/
def insMid (x : Item) : List Item → List Item
  | [] => [x]
  | y :: ys => if x.ts < y.ts then x :: y :: ys else y :: insMid x ys

/-- what `mq_addMessageByTimestamp` does to the sequence of pending messages -/
def absInsert (x : Item) (xs : List Item) : List Item :=
  match xs with
  | [] => [x]
  | y :: ys =>
    if x.ts < y.ts then x :: y :: ys
    else if x.ts ≥ ((y :: ys).getLast (by simp)).ts then (y :: ys) ++ [x]
    else y :: insMid x ys

/-- what `mq_removeMessage` does to the sequence of pending messages -/
def absRemove (m : Nat) (send : Option Nat) : List Item → Bool × List Item
  | [] => (false, [])
  | y :: ys =>
    if y.id = m then
      if send = none ∨ some y.send = send then (true, ys) else (false, y :: ys)
    else
      let (b, zs) := absRemove m send ys
      (b, y :: zs)

end Verif.MQ
