/-!
# What is heard of a compiler
-/

namespace Verif.Spec.CompilerStart

/-- The text with every line ended by carriage return and line feed. -/
def crlf (b : List UInt8) : List UInt8 :=
  b.flatMap fun x => if x = 10 then [13, 10] else [x]

/-- The text without the carriage return before each line feed. -/
def plain : List UInt8 → List UInt8
  | 13 :: 10 :: r => 10 :: plain r
  | b :: r => b :: plain r
  | [] => []

/-- All that was written, in order; and all that was written as an error. -/
def said (ws : List (Nat × List UInt8)) : List UInt8 :=
  ws.flatMap (·.2)

/-- Standard error alone. -/
def complained (ws : List (Nat × List UInt8)) : List UInt8 :=
  said (ws.filter fun w => w.1 = 2)

end Verif.Spec.CompilerStart
