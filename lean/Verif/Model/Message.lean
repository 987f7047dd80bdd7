import Verif.Model.Shown
import Verif.Model.Compile

/-!
# What each executor makes of its compilers' output

`Model/Compile.lean` ends with what `CompiledExecutor.get_compile_output` gets from one compiler, `Model/Shown.lean` begins with the error or warning of an
executor. Here is what lies between: `compiled_executor.py:220-256` with the overrides of PAS.py, CBL.py, asm_executor.py and java_executor.py. Scripts have
no warning at all.
-/

namespace Verif.Message

open Verif.Shown (Value Built Text)

/-- The executors that treat output in a way of their own. (PAS.py:20-22, CBL.py:26-33, asm_executor.py:51-70, java_executor.py:236-239) -/
inductive Kind where
  | other
  | pas
  | cbl
  | asm
  | javac
deriving DecidableEq, Repr

/-- ASCII text as bytes. (PAS.py:22) -/
def ascii (s : String) : Bytes := s.toList.map fun c => UInt8.ofNat c.toNat

/-- `a in b` for bytes. (PAS.py:22) -/
def within (a : Bytes) : Bytes → Bool
  | [] => a.isEmpty
  | x :: r => a.isPrefixOf (x :: r) || within a r

/-- The text of a message: compiled_executor.py:225-232. -/
def text : Compile.Msg → Bytes
  | .timedOut n => ascii "compiler timed out (> " ++ ascii (toString n) ++ ascii " seconds)"
  | .tooLong => ascii "compiler output too long (> 64kb)"
  | .output d => d

/-- `get_compile_output` of a successful compiler: PAS.py:20-22, CBL.py:26-33. -/
def kept (k : Kind) (out : Bytes) : Value :=
  match k with
  | .pas => if within (ascii "Fatal:") out || within (ascii "Warning:") out || within (ascii "Note:") out then .bytes out else .text []
  | .cbl =>
    if [("Error:", "error:"), ("Note:", "note:"), ("Warning:", "warning:")].any fun p => within (ascii p.1) out || within (ascii p.2) out then .bytes out
    else .text []
  | _ => .bytes out

/-- The message for the class of another file. (java_executor.py:237-238) -/
def troll : String := "You are a troll. Trolls are not welcome. As a judge, I sentence your code to death.\n"

/-- `handle_compile_error`: compiled_executor.py:243-244, java_executor.py:236-239. -/
def failure (k : Kind) (out : Bytes) : Value :=
  if k = .javac ∧ within (ascii "is public, should be declared in a file named") out = true then .text troll.toList else .bytes out

/-- `utf8text(..)` without `errors`, unicode.py:34-39: `none` is a `UnicodeDecodeError`. Bytes are well formed iff they are the encoding of what they are
decoded to with replacement. -/
def strict (b : Bytes) : Option Text :=
  if (Shown.decode b).flatMap String.utf8EncodeChar = b then some (Shown.decode b) else none

/-- `str.strip`, with Python's white space as parameter. (asm_executor.py:68) -/
def trim (ws : Char → Bool) (t : Text) : Text := ((t.dropWhile ws).reverse.dropWhile ws).reverse

/-- `compile`, compiled_executor.py:249-253, asm_executor.py:51-70: what the executor is left with, given what `get_compile_output` of `CompiledExecutor` gets
from the compiler (assembler) and the linker, which only assembly programs have. `none`: the exception is not a `CompileError`. -/
def compile (ws : Char → Bool) (k : Kind) (first second : Except Compile.Msg Compile.Msg) : Option Built :=
  match first with
  | .error m => some (.error (failure k (text m)))
  | .ok m =>
    if k = .asm then
      match second with
      | .error n => some (.error (failure k (text n)))
      | .ok n =>
        if text m = [] ∧ text n = [] then some (.binary none)
        else match strict (text m), strict (text n) with
          | some a, some b => some (.binary (some (.text (trim ws (a ++ '\n' :: b)))))
          | _, _ => none
    else some (.binary (some (kept k (text m))))

end Verif.Message
