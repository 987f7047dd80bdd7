import Verif.Basic

/-!
# The BF executor: dmoj/executors/BF.py
-/

namespace Verif.BF

/-- The loop of `_has_invalid_brackets`, BF.py:67-77: `n` is `open_brackets`. -/
def invalidLoop : Nat → Bytes → Bool
  | n, [] => n != 0
  | n, c :: cs =>
    if c = 91 then invalidLoop (n + 1) cs
    else if c = 93 then
      if n = 0 then true else invalidLoop (n - 1) cs
    else invalidLoop n cs

/-- BF.py:67-77. -/
@[inherit_doc invalidLoop]
def hasInvalidBrackets (src : Bytes) : Bool := invalidLoop 0 src

/-- `trans.get(c, b'')`, BF.py:34-43, 53. -/
def trans (c : Byte) : Bytes :=
  if c = 62 then b "++p;"
  else if c = 60 then b "--p;"
  else if c = 43 then b "++*p;"
  else if c = 45 then b "--*p;"
  else if c = 46 then b "putchar(*p);"
  else if c = 44 then b "*p=getchar();"
  else if c = 91 then b "while(*p){"
  else if c = 93 then b "}"
  else []

/-- `b''.join(map(trans.get, source_code, itertools.repeat(b'')))`, BF.py:53. -/
def body (src : Bytes) : Bytes := (src.map trans).flatten

/-- `template` up to `{code}`, BF.py:7-29. -/
def before : Bytes := List.flatten [
  b "#define _GNU_SOURCE\n",
  b "#include <errno.h>\n",
  b "#include <stdio.h>\n",
  b "#include <stdlib.h>\n",
  b "#include <sys/mman.h>\n",
  b "\n",
  b "int main(int argc, char **argv) {\n",
  b "    char *p;\n",
  b "    size_t size;\n",
  b "\n",
  b "    errno = 0;\n",
  b "    if (argc != 2 || (size = strtoull(argv[1], NULL, 10), errno)) {\n",
  b "        fprintf(stderr, \"%s <bytes to allocate>\\n\", argv[0]);\n",
  b "        return 2;\n",
  b "    }\n",
  b "\n",
  b "    p = mmap(NULL, size, PROT_READ | PROT_WRITE, MAP_PRIVATE | MAP_ANONYMOUS, -1, 0);\n",
  b "    if (p == MAP_FAILED) {\n",
  b "        perror(\"mmap\");\n",
  b "        return 2;\n",
  b "    }\n",
  b "\n",
  b "    "]

/-- `template`, BF.py:7-31. -/
def template : Bytes := before ++ b "{code}" ++ b "\n}\n"

/-- `s.replace(old, new)` of Python, for a non-empty `old`: occurrences from the left, not rescanning what was
put in. (BF.py:53) -/
def replace (old new : Bytes) : Nat → Bytes → Bytes
  | 0, s => s
  | _ + 1, [] => []
  | k + 1, c :: cs =>
    if old.isPrefixOf (c :: cs) then new ++ replace old new k ((c :: cs).drop old.length)
    else c :: replace old new k cs

/-- What compiling does: an error (`CompileError`, BF.py:51-52) or the C program compiled. The bound of `replace`
is the length of the template, which is enough since each round consumes a byte. -/
def compile (src : Bytes) : Option Bytes :=
  if hasInvalidBrackets src then none
  else some (replace (b "{code}") (body src) template.length template)

/-- `launch`, BF.py:61-65: the argument of the program (bytes to allocate) and the memory limit it is run with
(KiB). -/
def launch (memory : Nat) : Nat × Nat := (memory * 1024, memory + 8192)

end Verif.BF
