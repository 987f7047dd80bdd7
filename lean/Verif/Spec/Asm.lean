import Verif.Basic

/-! # Specification: settings and their defaults -/

namespace Verif.Asm.Spec

/-- `v` is what is configured under the key `k`: in the section, or where the section does not have the key, anywhere at the top. -/
def Configured {α : Type} (section' top : String → Option (Option α)) (k : String) (v : α) : Prop :=
  section' k = some (some v) ∨ section' k = none ∧ top k = some (some v)

/-- Nothing is. -/
def Unset {α : Type} (section' top : String → Option (Option α)) (k : String) : Prop := ∀ v, ¬ Configured section' top k v

/-- The languages and the machines whose kernels run their programs. -/
def native : List (String × List String) :=
  [("GAS32", ["x86", "x64"]), ("NASM", ["x86", "x64"]), ("GAS64", ["x64"]), ("NASM64", ["x64"]), ("GASARM", ["arm", "arm64"])]

/-- Where Debian has the dynamic linker and the start files of a platform; for 32-bit x86 the start files may be elsewhere. -/
def debian (lib32 : Bool) : List (String × String × String) :=
  [("x86", "/lib/ld-linux.so.2", if lib32 then "/usr/lib32" else "/usr/lib/i386-linux-gnu"),
   ("x64", "/lib64/ld-linux-x86-64.so.2", "/usr/lib/x86_64-linux-gnu"),
   ("arm", "/lib/ld-linux-armhf.so.3", "/usr/lib/arm-linux-gnueabihf")]

/-- The assembler, the linker and the platform of each language, by their keys. -/
def tools : List (String × String × String × String) :=
  [("GAS32", "as_x86", "ld_x86", "x86"), ("GAS64", "as_x64", "ld_x64", "x64"), ("GASARM", "as_arm", "ld_arm", "arm"), ("NASM", "nasm", "ld_x86", "x86"),
   ("NASM64", "nasm", "ld_x64", "x64")]

end Verif.Asm.Spec
