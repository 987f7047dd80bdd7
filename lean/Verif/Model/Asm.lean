import Verif.Model.Arch
import Verif.Model.FsPatterns

/-!
# Executors of assembler programs

`ASMExecutor` and its mixins: dmoj/executors/asm_executor.py:14-48, 72-108, 167-198, with GAS32.py, GAS64.py, GASARM.py, NASM.py and NASM64.py; `can_debug`:
dmoj/cptbox/tracer.py:396-397. Assembling and linking is in `CmdLine` (asm_executor.py:51-70) and `Source`.

Settings are looked up in `env.runtime`, a `ConfigNode` whose parent is the whole configuration (dmoj/config.py:82-125).
-/

namespace Verif.Asm
open Verif.Arch

/-- One level of the configuration. A key may be missing (outer `none`) or have no value (inner `none`). Values of other kinds than the ones
the executors expect (paths, lists of paths) are not treated. (dmoj/config.py:85-118) -/
structure Level where
  path : String → Option (Option String)
  paths : String → Option (Option (List String))

/-- What an executor sees of the machine. `lib32`: `env.runtime.crt_x86_in_lib32`. `passes`: `run_self_test`. (asm_executor.py:14-108) -/
structure World where
  host : Host
  runtime : Level
  whole : Level
  lib32 : Bool
  isFile : String → Bool
  passes : String → Bool

/-- `node[item]`: the parent is asked where the key is missing, not where it has no value. (config.py:85-118) -/
def item {α : Type} (own parent : Option (Option α)) : Option α :=
  match own with
  | some v => v
  | none => parent.join

/-- `item.replace('_', '-')` (config.py:82-83) -/
def hyphens (k : String) : String := String.ofList (k.toList.map fun c => if c = '_' then '-' else c)

/-- `node.item`: the other spelling where nothing is found. (config.py:82-83) -/
def attr {α : Type} (own parent : String → Option (Option α)) (k : String) : Option α :=
  match item (own k) (parent k) with
  | none => item (own (hyphens k)) (parent (hyphens k))
  | some v => some v

/-- The classes. (GAS32.py:4-7, GAS64.py:4-7, GASARM.py:6-17, NASM.py:4-8, NASM64.py:4-8, asm_executor.py:142-145, 167-198) -/
structure Kind where
  lang : String
  abi : Abi
  as : String
  ld : String
  /-- The ending of the keys. -/
  suffix : String

/-- As `Kind`. (asm_executor.py:167-198) -/
def kinds : List Kind := [
  ⟨"GAS32", .x86, "as_x86", "ld_x86", "x86"⟩,
  ⟨"GAS64", .x64, "as_x64", "ld_x64", "x64"⟩,
  ⟨"GASARM", .arm, "as_arm", "ld_arm", "arm"⟩,
  ⟨"NASM", .x86, "nasm", "ld_x86", "x86"⟩,
  ⟨"NASM64", .x64, "nasm", "ld_x64", "x64"⟩]

/-- `runtime_dict.get(key)`: `self[key] or None`. (asm_executor.py:40-46, config.py:70-71) -/
def program (w : World) (k : String) : Option String := (item (w.runtime.path k) (w.whole.path k)).filter fun s => s ≠ ""

/-- `qemu_path` (asm_executor.py:174, 194, GASARM.py:13) -/
def qemuPath (w : World) (k : Kind) : Option String := attr w.runtime.path w.whole.path ("qemu_" ++ k.suffix)

/-- The default of `dynamic_linker`. (asm_executor.py:175, 195, GASARM.py:14) -/
def linkerDefault : String → String
  | "x86" => "/lib/ld-linux.so.2"
  | "x64" => "/lib64/ld-linux-x86-64.so.2"
  | _ => "/lib/ld-linux-armhf.so.3"

/-- `dynamic_linker` (asm_executor.py:175, 195, GASARM.py:14) -/
def linker (w : World) (k : Kind) : String :=
  match program w ("ld.so_" ++ k.suffix) with
  | some p => p
  | none => linkerDefault k.suffix

/-- The directory of the start files. (asm_executor.py:177-182, 196-197, GASARM.py:15-16) -/
def crtDir (w : World) : String → String
  | "x86" => if w.lib32 then "/usr/lib32/" else "/usr/lib/i386-linux-gnu/"
  | "x64" => "/usr/lib/x86_64-linux-gnu/"
  | _ => "/usr/lib/arm-linux-gnueabihf/"

/-- `env.runtime.crt_... or [...]` (asm_executor.py:177-182, 196-197, GASARM.py:15-16) -/
def crt (w : World) (key : String) (default : List String) : List String :=
  match attr w.runtime.paths w.whole.paths key with
  | none => default
  | some [] => default
  | some (a :: l) => a :: l

/-- `crt_pre` (asm_executor.py:178, 181, 196, GASARM.py:15) -/
def crtPre (w : World) (k : Kind) : List String :=
  crt w ("crt_pre_" ++ k.suffix) [crtDir w k.suffix ++ "crt1.o", crtDir w k.suffix ++ "crti.o"]

/-- `crt_post` (asm_executor.py:179, 182, 197, GASARM.py:16) -/
def crtPost (w : World) (k : Kind) : List String := crt w ("crt_post_" ++ k.suffix) [crtDir w k.suffix ++ "crtn.o"]

/-- `can_debug` (tracer.py:396-397) -/
def canDebug (w : World) (k : Kind) : Bool := supports w.host k.abi

/-- `initialize` (asm_executor.py:94-108) -/
def offered (w : World) (k : Kind) (skip : Bool) : Bool :=
  if (qemuPath w k).isNone && !canDebug w k then false
  else
    match program w k.as, program w k.ld with
    | some as, some ld =>
      if [as, ld, linker w k].any fun i => !w.isFile i then false
      else if (crtPre w k).any (fun i => !w.isFile i) || (crtPost w k).any (fun i => !w.isFile i) then false
      else skip || w.passes k.lang
    | _, _ => false

/-- `use_qemu` (asm_executor.py:29) -/
def useQemu (w : World) (k : Kind) : Bool :=
  match qemuPath w k with
  | none => false
  | some p => w.isFile p

/-- `get_executable`: what is executed for a program `exe`. (asm_executor.py:77-80) -/
def executed (w : World) (k : Kind) (exe : String) : String :=
  match qemuPath w k with
  | none => exe
  | some p => if w.isFile p then p else exe

/-- What `get_fs` adds (asm_executor.py:82-86). -/
def more (emulated : Bool) (exe : List Char) : List (Option (List Char)) :=
  if emulated then [some "/proc/sys/vm/mmap_min_addr$".toList, some "/etc/qemu-binfmt/".toList, some exe] else []

end Verif.Asm
