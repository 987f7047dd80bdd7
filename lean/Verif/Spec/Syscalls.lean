import Verif.Basic

/-! # Specification: alias classes of syscall names -/

namespace Verif.Syscalls

/-- The alias class a name belongs to: the last line of the alias file that mentions it. -/
def InClass (aliases : List (List String)) (i : Nat) (name : String) : Prop :=
  (∃ l, aliases[i]? = some l ∧ name ∈ l) ∧ ∀ j l, i < j → aliases[j]? = some l → name ∉ l

/-- Two names denote the same call. -/
def SameCall (aliases : List (List String)) (a b : String) : Prop :=
  a = b ∨ ∃ i, InClass aliases i a ∧ InClass aliases i b

/-- No number of a table is given to two names. -/
def Unambiguous (rows : List (Nat × String)) : Prop :=
  ∀ n a b, (n, a) ∈ rows → (n, b) ∈ rows → a = b

/-- Numbers of calls that deal with files and processes in Linux on x86-64, as the interface of the kernel has them (`fstatat` is also called
`newfstatat` or `fstatat64`). -/
def x64Abi : List (Nat × String) :=
  [(0, "read"), (1, "write"), (2, "open"), (3, "close"), (4, "stat"), (5, "fstat"), (6, "lstat"), (7, "poll"), (8, "lseek"),
   (9, "mmap"), (10, "mprotect"), (11, "munmap"), (12, "brk"), (21, "access"), (32, "dup"), (33, "dup2"), (39, "getpid"),
   (41, "socket"), (42, "connect"), (56, "clone"), (57, "fork"), (58, "vfork"), (59, "execve"), (60, "exit"), (62, "kill"),
   (72, "fcntl"), (79, "getcwd"), (80, "chdir"), (82, "rename"), (83, "mkdir"), (84, "rmdir"), (86, "link"), (87, "unlink"),
   (88, "symlink"), (89, "readlink"), (90, "chmod"), (101, "ptrace"), (137, "statfs"), (138, "fstatfs"), (157, "prctl"),
   (200, "tkill"), (231, "exit_group"), (234, "tgkill"), (257, "openat"), (262, "fstatat"), (263, "unlinkat"), (267, "readlinkat"),
   (269, "faccessat"), (302, "prlimit64"), (319, "memfd_create"), (322, "execveat"), (332, "statx"), (435, "clone3"),
   (437, "openat2"), (439, "faccessat2")]

/-- Numbers of calls that deal with files and processes in Linux on x86, as the interface of the kernel has them (`fstatat` is also called
`newfstatat` or `fstatat64`). -/
def x86Abi : List (Nat × String) :=
  [(1, "exit"), (2, "fork"), (3, "read"), (4, "write"), (5, "open"), (6, "close"), (10, "unlink"), (11, "execve"), (12, "chdir"),
   (26, "ptrace"), (33, "access"), (37, "kill"), (38, "rename"), (39, "mkdir"), (45, "brk"), (85, "readlink"), (90, "mmap"),
   (99, "statfs"), (106, "stat"), (107, "lstat"), (108, "fstat"), (120, "clone"), (183, "getcwd"), (190, "vfork"), (195, "stat64"),
   (196, "lstat64"), (197, "fstat64"), (238, "tkill"), (252, "exit_group"), (270, "tgkill"), (295, "openat"), (300, "fstatat"),
   (305, "readlinkat"), (307, "faccessat"), (340, "prlimit64"), (383, "statx"), (435, "clone3"), (437, "openat2"), (439, "faccessat2")]

/-- Numbers of calls that deal with files and processes in Linux on 32-bit ARM, as the interface of the kernel has them (`fstatat` is also called
`newfstatat` or `fstatat64`). -/
def armAbi : List (Nat × String) :=
  [(1, "exit"), (2, "fork"), (3, "read"), (4, "write"), (5, "open"), (6, "close"), (10, "unlink"), (11, "execve"), (12, "chdir"),
   (26, "ptrace"), (33, "access"), (37, "kill"), (38, "rename"), (39, "mkdir"), (45, "brk"), (85, "readlink"), (99, "statfs"),
   (106, "stat"), (107, "lstat"), (108, "fstat"), (120, "clone"), (183, "getcwd"), (190, "vfork"), (195, "stat64"), (196, "lstat64"),
   (197, "fstat64"), (238, "tkill"), (248, "exit_group"), (268, "tgkill"), (322, "openat"), (327, "fstatat"), (332, "readlinkat"),
   (334, "faccessat"), (369, "prlimit64"), (397, "statx"), (435, "clone3"), (437, "openat2"), (439, "faccessat2")]

/-- Numbers of calls that deal with files and processes in Linux on 64-bit ARM, as the interface of the kernel has them (`fstatat` is also called
`newfstatat` or `fstatat64`). -/
def arm64Abi : List (Nat × String) :=
  [(17, "getcwd"), (48, "faccessat"), (49, "chdir"), (56, "openat"), (57, "close"), (63, "read"), (64, "write"), (78, "readlinkat"),
   (79, "fstatat"), (80, "fstat"), (93, "exit"), (94, "exit_group"), (117, "ptrace"), (129, "kill"), (130, "tkill"), (131, "tgkill"),
   (214, "brk"), (215, "munmap"), (220, "clone"), (221, "execve"), (222, "mmap"), (226, "mprotect"), (261, "prlimit64"),
   (291, "statx"), (435, "clone3"), (437, "openat2"), (439, "faccessat2")]

end Verif.Syscalls
