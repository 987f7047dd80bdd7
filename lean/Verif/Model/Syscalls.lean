import Verif.Basic

/-!
# Syscall numbers and handler tables

* the translation table: dmoj/cptbox/syscalls.py:13-62 (`create`), from the parsed lines of the alias file
  and of the table files;
* the handler table: dmoj/cptbox/tracer.py:131-152, dmoj/cptbox/ptproc.cpp (`set_handler`);
* the in-kernel allow list: dmoj/cptbox/tracer.py:169-183;
* the decision for a syscall number: dmoj/cptbox/ptproc.cpp:244-274 and dmoj/cptbox/tracer.py:245-260.
-/

namespace Verif.Syscalls

/-- State of `create`: `by_name` (most recent binding first), `by_id`, `iid_map` (indexed by id).
(syscalls.py:13-30) -/
structure Maps where
  byName : List (String × Nat)
  byId : List String
  iid : List (List (List Nat))

/-- `by_name[name]`. (syscalls.py:13-30) -/
def Maps.find (m : Maps) (name : String) : Option Nat := m.byName.lookup name

/-- One line of the alias file, syscalls.py:23-28. -/
def addLine (size : Nat) (m : Maps) (i : Nat) (names : List String) : Maps :=
  { byName := names.foldl (fun b c => (c, i) :: b) m.byName
    byId := m.byId ++ [match names with | [] => "sys_" | n :: _ => "sys_" ++ n]
    iid := m.iid ++ [List.replicate size []] }

/-- The alias file. A line without names raises an exception in Python; the theorems assume there is
none. (syscalls.py:13-30) -/
def addLines (size : Nat) : Maps → Nat → List (List String) → Maps
  | m, _, [] => m
  | m, i, l :: ls => addLines size (addLine size m i l) (i + 1) ls

/-- `max(by_name.values())`. (syscalls.py:29-52) -/
def maxId (m : Maps) : Nat := (m.byName.map (·.2)).foldl max 0

/-- `alloc_id`, syscalls.py:32-40: (state, `max_id`) to (id, state, `max_id`). -/
def alloc (size : Nat) (m : Maps) (top : Nat) (name : String) : Nat × Maps × Nat :=
  match m.find name with
  | some k => (k, m, top)
  | none => (top + 1, { byName := (name, top + 1) :: m.byName
                        byId := m.byId ++ ["sys_" ++ name]
                        iid := m.iid ++ [List.replicate size []] }, top + 1)

/-- One line of a table file, syscalls.py:44-47. -/
def addEntry (size : Nat) (s : Maps × Nat) (e : Nat × Nat × String) : Maps × Nat :=
  let (k, m, top) := alloc size s.1 s.2 e.2.2
  ({ m with iid := m.iid.modify k fun row => row.modify e.1 fun l => l ++ [e.2.1] }, top)

/-- All lines of all tables in order: (table index, number, name). (syscalls.py:29-52) -/
def entries (tables : List (List (Nat × String))) : List (Nat × Nat × String) :=
  tables.zipIdx.flatMap fun (rows, t) => rows.map fun (num, name) => (t, num, name)

/-- `create`; the second component is the final `max_id` (before it is incremented). (syscalls.py:29-52) -/
def create (aliases : List (List String)) (tables : List (List (Nat × String))) : Maps × Nat :=
  let m := addLines tables.length ⟨[], [], []⟩ 0 aliases
  (entries tables).foldl (addEntry tables.length) (m, maxId m)

/-- `translator[id][index]`. (syscalls.py:48-52) -/
def Maps.calls (m : Maps) (id index : Nat) : List Nat := (m.iid.getD id []).getD index []

/-! ## Handlers -/

/-- A value in the security dictionary: an integer or a callable. (tracer.py:138-152) -/
inductive Pol (C : Type) where
  | int (n : Int)
  | fn (c : C)

/-- Handler codes of one ABI and its Python callbacks. (tracer.py:138-152) -/
structure Table (C : Type) where
  code : Nat → Int
  cb : Nat → Option C

/-- Body of the loop tracer.py:141-152. `MAX_SYSCALL` is 568; larger numbers are ignored by `set_handler`
(in Python a callback for such a number raises IndexError; the tables have none). -/
def assign {C : Type} (sec : Nat → Option (Pol C)) (t : Table C) (i call : Nat) : Table C :=
  if call < 568 then
    match sec i with
    | none => { t with code := fun n => if n = call then 0 else t.code n }
    | some (.int h) => { t with code := fun n => if n = call then h else t.code n }
    | some (.fn c) => { code := fun n => if n = call then 2 else t.code n
                        cb := fun n => if n = call then some c else t.cb n }
  else t

/-- The nested loops, as the list of (id, number) they visit. (tracer.py:138-152) -/
def visits (calls : Nat → List Nat) (count : Nat) : List (Nat × Nat) :=
  (List.range count).flatMap fun i => (calls i).map fun c => (i, c)

/-- The handler table of one ABI; `calls` is `translator[·][index]`. (tracer.py:138-152) -/
def build {C : Type} (sec : Nat → Option (Pol C)) (calls : Nat → List Nat) (count : Nat) : Table C :=
  (visits calls count).foldl (fun t v => assign sec t v.1 v.2) ⟨fun _ => 0, fun _ => none⟩

/-- `_get_seccomp_whitelist`, tracer.py:169-183; `exits` are the ids of exit and exit_group. -/
def whitelist {C : Type} (sec : Nat → Option (Pol C)) (calls : Nat → List Nat) (count : Nat) (exits : List Nat) : Nat → Bool :=
  (visits calls count).foldl (fun w v =>
    if v.1 ∈ exits then w
    else match sec v.1 with
      | none => fun n => if n = v.2 then false else w n
      | some (.int h) => fun n => if n = v.2 then h == 1 else w n
      | some (.fn _) => w) fun _ => false

/-- What the tracer does with a syscall. (ptproc.cpp:244-274) -/
inductive Dec (C : Type) where
  | allow
  | stdouterr
  | ask (c : C)
  | deny
deriving DecidableEq

/-- The Python side, `_callback`, tracer.py:245-260: Python lists accept indices from -568. -/
def pyCallback {C : Type} (isArm : Bool) (t : Table C) (n : Int) : Dec C :=
  if n ≥ 568 ∨ n < -568 then
    if isArm = true ∧ 0xF0000 < n ∧ n < 0xF0006 then .allow else .deny
  else
    match t.cb (if n < 0 then (n + 568).toNat else n.toNat) with
    | some c => .ask c
    | none => .deny

/-- The decision of the monitor for a syscall number, ptproc.cpp:244-274. -/
def decideCall {C : Type} (isArm : Bool) (t : Table C) (n : Int) : Dec C :=
  if 0 ≤ n ∧ n < 568 then
    if t.code n.toNat = 1 then .allow
    else if t.code n.toNat = 3 then .stdouterr
    else if t.code n.toNat = 2 then pyCallback isArm t n
    else .deny
  else pyCallback isArm t n

end Verif.Syscalls
