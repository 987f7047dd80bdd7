import Verif.Basic

/-!
# Configuration nodes, dmoj/config.py

YAML documents are Python objects with identity: a dictionary reached through two `ConfigNode`s is
the same object, and dynamic keys change it in place.  The model has a heap of objects, and a node is
the chain of object references from the node outwards to its ancestors.

Names are lists of characters.  Keys are strings or integers.
-/

namespace Verif.Config

/-- Strings. (config.py:10-54) -/
abbrev Name := List Char

/-- Dictionary keys and the argument of `node[...]`. (config.py:10-54) -/
inductive Key where
  | str (s : Name)
  | int (n : Int)
deriving DecidableEq, Repr

/-- Values: `ref` is a dictionary or list on the heap, `opaque` any other object. (config.py:10-54) -/
inductive V where
  | null
  | bool (b : Bool)
  | int (n : Int)
  | str (s : Name)
  | opaque (n : Nat)
  | ref (r : Nat)
deriving DecidableEq, Repr

/-- Objects. (config.py:10-54) -/
inductive Obj where
  | dict (l : List (Key × V))
  | list (l : List V)
deriving DecidableEq, Repr

/-- The heap; references are positions, new objects are appended. (config.py:10-54) -/
abbrev Heap := List Obj

/-- A `ConfigNode`: the references of its own object, of its parent's, and so on. (config.py:10-54) -/
abbrev Chain := List Nat

/-- `len(node)`, dmoj/config.py:122-123. -/
def Obj.len : Obj → Nat
  | .dict l => l.length
  | .list l => l.length

/-- Running the code of a dynamic key (`exec` and `node` when the flag is true, `eval` otherwise):
arguments are the code, the heap, the node, and the value already stored under the key.  It fails
(any exception) or allocates objects and returns a value.  Trusted: the code does not modify existing
configuration objects. (config.py:90-113) -/
abbrev Ev := Bool → V → Heap → Chain → Option V → Option (List Obj × V)

/-- Heap, and the dynamic keys evaluated successfully so far. (config.py:10-54) -/
structure St where
  heap : Heap
  log : List (Nat × Name)
deriving DecidableEq, Repr

/-- What `node[item]` returns. (config.py:10-54) -/
inductive Res where
  | value (v : V)          -- anything but a dictionary or list; `null` is None
  | node (c : Chain)
deriving DecidableEq, Repr

/-- InvalidInitException. (config.py:1-7) -/
inductive Err where
  | invalidInit
deriving DecidableEq, Repr

/-- `d[k]`. (config.py:86-120) -/
def get? (l : List (Key × V)) (k : Key) : Option V := l.lookup k

/-- `d[k] = v`: in place if present, else at the end. (config.py:86-120) -/
def set (l : List (Key × V)) (k : Key) (v : V) : List (Key × V) :=
  if (l.lookup k).isSome then l.map fun e => if e.1 = k then (k, v) else e
  else l ++ [(k, v)]

/-- `del d[k]`. (config.py:86-120) -/
def del (l : List (Key × V)) (k : Key) : List (Key × V) := l.filter fun e => decide (e.1 ≠ k)

/-- `run_dynamic_key`, dmoj/config.py:90-103, for the dictionary `l` at `r`. -/
def runDynamic (ev : Ev) (st : St) (r : Nat) (chain : Chain) (l : List (Key × V)) (item key : Name)
    (full : Bool) (code : V) : Except Err St :=
  match ev full code st.heap chain (get? l (.str item)) with
  | none => .error .invalidInit
  | some (objs, v) =>
    .ok ⟨st.heap.set r (.dict (set (del l (.str key)) (.str item) v)) ++ objs, st.log ++ [(r, key)]⟩

/-- dmoj/config.py:105-113. -/
def dynamics (ev : Ev) (st : St) (r : Nat) (chain : Chain) (l : List (Key × V)) (item : Name) :
    Except Err St :=
  match get? l (.str (item ++ ['+', '+'])) with
  | some code => runDynamic ev st r chain l item (item ++ ['+', '+']) true code
  | none =>
    match get? l (.str (item ++ ['+'])) with
    | some code => runDynamic ev st r chain l item (item ++ ['+']) false code
    | none => .ok st

/-- Wrapping of dictionaries and lists, dmoj/config.py:116-117. -/
def wrap (v : V) (chain : Chain) : Res :=
  match v with
  | .ref r => .node (r :: chain)
  | v => .value v

/-- `list[n]`, negative indices count from the end. (config.py:86-120) -/
def index (l : List V) (n : Int) : Option V :=
  if 0 ≤ n then l[n.toNat]?
  else if 0 ≤ n + l.length then l[(n + l.length).toNat]?
  else none

/-- `self.raw_config[item]` after the dynamic keys have been dealt with. (config.py:86-120) -/
def own (heap : Heap) (r : Nat) (item : Key) : Option V :=
  match heap[r]? with
  | some (.dict l) => get? l item
  | some (.list l) => match item with
    | .int n => index l n
    | .str _ => none
  | none => none

/-- The part of `__getitem__` that may run code, dmoj/config.py:88-115: the new state and the own
value; `none` when a KeyError, IndexError or TypeError is caught.  With `dynamic`, an integer item on
a dictionary raises TypeError at `item + '++'`. -/
def ownDyn (ev : Ev) (dynamic : Bool) (st : St) (r : Nat) (chain : Chain) (item : Key) :
    St × Except Err (Option V) :=
  match dynamic, st.heap[r]? with
  | true, some (.dict l) =>
    match item with
    | .int _ => (st, .ok none)
    | .str s =>
      match dynamics ev st r chain l s with
      | .error e => (st, .error e)
      | .ok st' => (st', .ok (own st'.heap r item))
  | _, _ => (st, .ok (own st.heap r item))

/-- `bool(parent)`: a node is true when it is not empty. (config.py:86-120) -/
def nonEmpty (heap : Heap) (r : Nat) : Bool :=
  match heap[r]? with
  | some o => o.len != 0
  | none => false

/-- `__getitem__`, dmoj/config.py:86-120. -/
def getitem (ev : Ev) (dynamic : Bool) : St → Chain → Key → St × Except Err Res
  | st, [], _ => (st, .ok (.value .null))
  | st, r :: rest, item =>
    match ownDyn ev dynamic st r (r :: rest) item with
    | (st, .error e) => (st, .error e)
    | (st, .ok (some v)) => (st, .ok (wrap v (r :: rest)))
    | (st, .ok none) =>
      match rest with
      | [] => (st, .ok (.value .null))
      | p :: _ => if nonEmpty st.heap p then getitem ev dynamic st rest item else (st, .ok (.value .null))

/-- Python truth of a result; objects other than the modelled ones count as true. (config.py:86-120) -/
def Res.truthy (heap : Heap) : Res → Bool
  | .value .null => false
  | .value (.bool b) => b
  | .value (.int n) => n != 0
  | .value (.str s) => s != []
  | .value _ => true
  | .node [] => false
  | .node (r :: _) => nonEmpty heap r

/-- `get(key, default)`, dmoj/config.py:70-71. -/
def get (ev : Ev) (dynamic : Bool) (st : St) (c : Chain) (item : Key) (dflt : Res) : St × Except Err Res :=
  match getitem ev dynamic st c item with
  | (st, .error e) => (st, .error e)
  | (st, .ok v) => (st, .ok (if v.truthy st.heap then v else dflt))

/-- `item.replace('_', '-')`. (config.py:86-120) -/
def dashed (s : Name) : Name := s.map fun c => if c = '_' then '-' else c

/-- `__getattr__`, dmoj/config.py:83-84: the lookup is made twice. -/
def getattr (ev : Ev) (dynamic : Bool) (st : St) (c : Chain) (s : Name) : St × Except Err Res :=
  match getitem ev dynamic st c (.str s) with
  | (st, .error e) => (st, .error e)
  | (st, .ok (.value .null)) => getitem ev dynamic st c (.str (dashed s))
  | (st, .ok _) => getitem ev dynamic st c (.str s)

/-- `raw_config` after `__init__`, dmoj/config.py:47-54, when both arguments are dictionaries
(`none`: not given): defaults, updated with the explicit entries in order. -/
def initial (defaults raw : Option (List (Key × V))) : List (Key × V) :=
  match defaults with
  | some (d :: ds) => (raw.getD []).foldl (fun acc e => set acc e.1 e.2) (d :: ds)
  | _ => raw.getD []

/-- A sequence of lookups; failures do not stop it. (config.py:86-120) -/
def lookups (ev : Ev) (dynamic : Bool) : St → List (Chain × Key) → St
  | st, [] => st
  | st, (c, k) :: r => lookups ev dynamic (getitem ev dynamic st c k).1 r

/-- A key, as a value. (config.py:129) -/
def Key.value : Key → V
  | .str s => .str s
  | .int n => .int n

/-- `for x in node`, config.py:128-132: the elements of a list; of a dictionary, its keys (strings and numbers, as they are). -/
def iter (heap : Heap) : Chain → List Res
  | [] => []
  | r :: rest =>
    match heap[r]? with
    | some (.list l) => l.map fun v => wrap v (r :: rest)
    | some (.dict l) => l.map fun e => .value e.1.value
    | none => []

/-- `node.items()`, config.py:73-81; `none`: `InvalidInitException`. -/
def items (heap : Heap) : Chain → Option (List (Key × Res))
  | [] => none
  | r :: rest =>
    match heap[r]? with
    | some (.dict l) => some (l.map fun e => (e.1, wrap e.2 (r :: rest)))
    | _ => none

/-- `node.keys()`, config.py:65-68. -/
def keys (heap : Heap) : Chain → Option (List Key)
  | [] => none
  | r :: _ =>
    match heap[r]? with
    | some (.dict l) => some (l.map (·.1))
    | _ => none

/-- `node + other` for two nodes, config.py:137-143: a new list, in a node that has no parent; `none`: `TypeError`. (An empty list is an empty dictionary
in its node, which is left out here.) -/
def add (heap : Heap) : Chain → Chain → Option (Heap × Chain)
  | a :: _, b :: _ =>
    match heap[a]?, heap[b]? with
    | some (.list l), some (.list m) => some (heap ++ [.list (l ++ m)], [heap.length])
    | _, _ => none
  | _, _ => none

end Verif.Config
