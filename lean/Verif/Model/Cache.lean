import Verif.Basic

/-!
# The cache of compiled programs: dmoj/executors/compiled_executor.py:30-69, 124-132,
dmoj/executors/gcc_executor.py:26-51, dmoj/executors/base_executor.py:36-80

`pylru.lrucache` is modelled from its documentation and source: looking an entry up makes it the most
recent one; storing a new key when the cache is full first calls the callback for the least recent entry
and drops it; storing a key which is there replaces its value, without the callback. An object is
finalised (`__del__`) when the last reference to it goes away.
-/

namespace Verif.Cache

/-! ## The key -/

/-- Byte strings. (compiled_executor.py:50-53) -/
abbrev Bytes := List UInt8

/-- What an executor is made from, as far as the keys look at it. (compiled_executor.py:50-53) -/
structure Request where
  /-- class name and module -/
  cls : Bytes
  mod : Bytes
  problem : Bytes
  source : Bytes
deriving DecidableEq

/-- `cache_key_material` with the key of `CompiledExecutor`, compiled_executor.py:52, 246-247. The key
itself is the SHA-384 digest, which is taken to be injective. -/
def material (r : Request) : Bytes := r.cls ++ r.mod ++ (r.problem ++ r.source)

/-- What a C or C++ executor is made from. (gcc_executor.py:28-51) -/
structure GccRequest where
  cls : Bytes
  mod : Bytes
  problem : Bytes
  command : Bytes
  march : Bytes
  defines : List Bytes
  flags : List Bytes
  ldflags : List Bytes
  /-- `source_dict`: file name and content -/
  sources : List (Bytes × Bytes)
deriving DecidableEq

/-- `cache_key_material` with the key of `GCCExecutor`, gcc_executor.py:45-51. -/
def gccMaterial (r : GccRequest) : Bytes :=
  r.cls ++ r.mod ++ (([r.problem, r.command, r.march] ++ r.defines ++ r.flags ++ r.ldflags).flatten ++
    (r.sources.map (·.2)).flatten)

/-! ## The cache -/

/-- Cache keys. (compiled_executor.py:50-53) -/
abbrev Key := Nat

/-- A `CompiledExecutor`. A directory is named after the executor which made it.
(compiled_executor.py:30-69, 124-132) -/
structure Exec where
  key : Key
  isCached : Bool
  dir : Option Nat
deriving DecidableEq

/-- The cache (most recent entry first), the executors, which of them someone outside the cache holds, the
directories on disk, those in which the executable is there, what was compiled in each, and the number of the
next executor. (compiled_executor.py:30-69, 124-132) -/
structure State where
  cap : Nat
  cache : List (Key × Nat) := []
  execs : Nat → Option Exec := fun _ => none
  held : List Nat := []
  disk : Nat → Bool := fun _ => false
  exe : Nat → Bool := fun _ => false
  built : Nat → Option Key := fun _ => none
  next : Nat := 0

/-- Update of a function at one place. (compiled_executor.py:30-69, 124-132) -/
def upd {α : Type} (f : Nat → α) (n : Nat) (a : α) : Nat → α := fun m => if m = n then a else f m

/-- A reference to executor `n` went away: `__del__`, base_executor.py:60-80 and
compiled_executor.py:130-132, if it was the last one. -/
def State.drop (s : State) (n : Nat) : State :=
  if n ∈ s.held ∨ n ∈ s.cache.map (·.2) then s
  else
    match s.execs n with
    | none => s
    | some x =>
      let s := { s with execs := upd s.execs n none }
      match x.dir with
      | some d => if x.isCached then s else { s with disk := upd s.disk d false, exe := upd s.exe d false }
      | none => s

/-- `self.compiled_binary_cache[cache_key]`: the entry becomes the most recent one.
(compiled_executor.py:30-69, 124-132) -/
def State.touch (s : State) (k : Key) (e : Nat) : State :=
  { s with cache := (k, e) :: s.cache.filter fun c => c.1 ≠ k }

/-- `self.compiled_binary_cache[cache_key] = obj`, with the callback `_cleanup_cache_entry`,
compiled_executor.py:31-35, 67. -/
def State.store (s : State) (k : Key) (n : Nat) : State :=
  match s.cache.lookup k with
  | some old => State.drop { s with cache := (k, n) :: s.cache.filter fun c => c.1 ≠ k } old
  | none =>
    if s.cache.length < s.cap then { s with cache := (k, n) :: s.cache }
    else
      match s.cache.getLast? with
      | none => { s with cache := (k, n) :: s.cache }
      | some (_, old) =>
        State.drop { s with
          execs := upd s.execs old ((s.execs old).map fun x => { x with isCached := false })
          cache := (k, n) :: s.cache.dropLast } old

/-- How a compilation ends: an executable, an error before anything is on disk, or a later one.
(compiled_executor.py:30-69, 124-132) -/
inductive Compile where
  | ok
  | early
  | late
deriving DecidableEq

/-- The hit, compiled_executor.py:54-61. -/
def State.hit (s : State) (k : Key) (cached : Bool) : Option (Nat × Nat) :=
  if cached then
    match s.cache.lookup k with
    | none => none
    | some e =>
      match (s.execs e).bind (·.dir) with
      | none => none
      | some d => if s.exe d then some (e, d) else none
  else none

/-- `_CompiledExecutorMeta.__call__`, compiled_executor.py:41-69, for an executor with key `k`. -/
def State.call (s : State) (k : Key) (cached : Bool) (c : Compile) : State :=
  let n := s.next
  let s' := { s with next := n + 1 }
  -- the lookup alone reorders the cache
  let s' := match cached, s.cache.lookup k with
    | true, some e => s'.touch k e
    | _, _ => s'
  match s.hit k cached with
  | some (_, d) => { s' with execs := upd s'.execs n (some ⟨k, cached, some d⟩), held := n :: s'.held }
  | none =>
    match c with
    | .early => State.drop { s' with execs := upd s'.execs n (some ⟨k, cached, none⟩) } n
    | .late => State.drop { s' with execs := upd s'.execs n (some ⟨k, cached, some n⟩), disk := upd s'.disk n true } n
    | .ok =>
      let s' := { s' with
        execs := upd s'.execs n (some ⟨k, cached, some n⟩)
        disk := upd s'.disk n true
        exe := upd s'.exe n true
        built := upd s'.built n (some k)
        held := n :: s'.held }
      if cached then s'.store k n else s'

/-- What can happen. (compiled_executor.py:30-69, 124-132) -/
inductive Op where
  | call (k : Key) (cached : Bool) (c : Compile)
  /-- The holder of an executor lets go of it. -/
  | release (n : Nat)
  /-- Something outside removes the executable from a directory. -/
  | lose (d : Nat)

/-- One step. (compiled_executor.py:30-69, 124-132) -/
def step (s : State) : Op → State
  | .call k cached c => s.call k cached c
  | .release n => State.drop { s with held := s.held.filter (· ≠ n) } n
  | .lose d => { s with exe := upd s.exe d false }

/-- All steps, from an empty cache. (compiled_executor.py:30-69, 124-132) -/
def run (cap : Nat) (ops : List Op) : State := ops.foldl step { cap := cap }

end Verif.Cache
