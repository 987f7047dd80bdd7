import Verif.Basic

/-!
# BF programs, the C statements used for them, and what both mean

The tape holds bytes and has no end here (running off the allocated block is a crash in C). Reading at the end of
the input stores 255, as `getchar` returns -1 then.
-/

namespace Verif.BF.Spec

/-- The machine: tape, position, input still to be read, output. -/
structure St where
  tape : Int → UInt8 := fun _ => 0
  pos : Int := 0
  input : Bytes := []
  output : Bytes := []

/-- The current cell. -/
def St.cell (s : St) : UInt8 := s.tape s.pos

/-- The current cell changed. -/
def St.set (s : St) (v : UInt8) : St := { s with tape := fun q => if q = s.pos then v else s.tape q }

/-! ## BF -/

/-- BF commands other than loops. -/
inductive Op where
  | right
  | left
  | inc
  | dec
  | out
  | inp
deriving DecidableEq

/-- How they are written. -/
def Op.char : Op → Byte
  | .right => 62
  | .left => 60
  | .inc => 43
  | .dec => 45
  | .out => 46
  | .inp => 44

/-- BF programs are lists of these. -/
inductive Cmd where
  | op (o : Op)
  | loop (body : List Cmd)

/-- A byte which means something. -/
def Meant (c : Byte) : Prop := (∃ o : Op, c = o.char) ∨ c = 91 ∨ c = 93

/-- `src` is a way to write the program. -/
inductive Parses : Bytes → List Cmd → Prop where
  | nil : Parses [] []
  | comment {c src p} : ¬ Meant c → Parses src p → Parses (c :: src) p
  | op {src p} (o : Op) : Parses src p → Parses (o.char :: src) (.op o :: p)
  | loop {inner rest p q} : Parses inner p → Parses rest q → Parses (91 :: (inner ++ 93 :: rest)) (.loop p :: q)

/-- What a command does. -/
def Op.run : Op → St → St
  | .right, s => { s with pos := s.pos + 1 }
  | .left, s => { s with pos := s.pos - 1 }
  | .inc, s => s.set (s.cell + 1)
  | .dec, s => s.set (s.cell - 1)
  | .out, s => { s with output := s.output ++ [s.cell] }
  | .inp, s =>
    match s.input with
    | [] => s.set 255
    | c :: cs => { s.set c with input := cs }

/-- One step: what is left to do, and the machine. -/
def bfStep : List Cmd × St → List Cmd × St
  | ([], s) => ([], s)
  | (.op o :: k, s) => (k, o.run s)
  | (.loop p :: k, s) => if s.cell = 0 then (k, s) else (p ++ .loop p :: k, s)

/-- `n` steps. -/
def bfRun : Nat → List Cmd × St → List Cmd × St
  | 0, c => c
  | n + 1, c => bfRun n (bfStep c)

/-! ## C -/

/-- C statements other than `while`. -/
inductive Simple where
  | incPtr
  | decPtr
  | incCell
  | decCell
  | putchar
  | getchar
deriving DecidableEq

/-- How they are written. -/
def Simple.text : Simple → Bytes
  | .incPtr => b "++p;"
  | .decPtr => b "--p;"
  | .incCell => b "++*p;"
  | .decCell => b "--*p;"
  | .putchar => b "putchar(*p);"
  | .getchar => b "*p=getchar();"

/-- C statements. -/
inductive Stmt where
  | simple (s : Simple)
  | while (body : List Stmt)

/-- `t` is the text of these statements. -/
inductive CText : Bytes → List Stmt → Prop where
  | nil : CText [] []
  | simple {t p} (s : Simple) : CText t p → CText (s.text ++ t) (.simple s :: p)
  | while {inner rest p q} : CText inner p → CText rest q → CText (b "while(*p){" ++ (inner ++ (b "}" ++ rest))) (.while p :: q)

/-- `char` arithmetic wraps around; `putchar` writes an `unsigned char`; `getchar` returns an `unsigned char` or
-1, stored in a `char`. -/
def Simple.run : Simple → St → St
  | .incPtr, s => { s with pos := s.pos + 1 }
  | .decPtr, s => { s with pos := s.pos - 1 }
  | .incCell, s => s.set (s.tape s.pos + 1)
  | .decCell, s => s.set (s.tape s.pos - 1)
  | .putchar, s => { s with output := s.output ++ [s.tape s.pos] }
  | .getchar, s =>
    match s.input with
    | [] => s.set (UInt8.ofNat 255)
    | c :: cs => { s.set c with input := cs }

/-- One step of the statements. -/
def cStep : List Stmt × St → List Stmt × St
  | ([], s) => ([], s)
  | (.simple x :: k, s) => (k, x.run s)
  | (.while p :: k, s) => if s.tape s.pos ≠ 0 then (p ++ .while p :: k, s) else (k, s)

/-- `n` steps. -/
def cRun : Nat → List Stmt × St → List Stmt × St
  | 0, c => c
  | n + 1, c => cRun n (cStep c)

end Verif.BF.Spec
