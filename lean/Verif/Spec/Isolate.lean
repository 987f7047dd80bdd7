import Verif.Spec.Path
import Verif.Spec.ReadStr

/-! # Specification: which Linux syscalls take a path, and where -/

namespace Verif.Isolate

/-- Linux syscalls with a path argument (and FreeBSD's `eaccess`, which an executor mentions): name, register of the directory descriptor, register of the
path (the first one if there are several). From the manual pages of the calls. -/
def pathCalls : List (String × Option Nat × Nat) :=
  [("eaccess", none, 0), ("open", none, 0), ("openat", some 0, 1), ("openat2", some 0, 1), ("creat", none, 0), ("stat", none, 0),
   ("lstat", none, 0), ("stat64", none, 0), ("lstat64", none, 0), ("oldstat", none, 0), ("oldlstat", none, 0),
   ("fstatat", some 0, 1), ("statx", some 0, 1), ("access", none, 0), ("faccessat", some 0, 1),
   ("readlink", none, 0), ("readlinkat", some 0, 1), ("statfs", none, 0), ("statfs64", none, 0),
   ("mkdir", none, 0), ("mkdirat", some 0, 1), ("rmdir", none, 0), ("unlink", none, 0), ("unlinkat", some 0, 1),
   ("rename", none, 0), ("renameat", some 0, 1), ("renameat2", some 0, 1), ("link", none, 0),
   ("linkat", some 0, 1), ("symlink", none, 0), ("symlinkat", none, 0), ("chmod", none, 0),
   ("fchmodat", some 0, 1), ("chown", none, 0), ("chown32", none, 0), ("lchown", none, 0), ("lchown32", none, 0),
   ("fchownat", some 0, 1), ("truncate", none, 0), ("truncate64", none, 0), ("mknod", none, 0),
   ("mknodat", some 0, 1), ("utime", none, 0), ("utimes", none, 0), ("utimensat", some 0, 1),
   ("futimesat", some 0, 1), ("chdir", none, 0), ("chroot", none, 0), ("execve", none, 0),
   ("execveat", some 0, 1), ("mount", none, 0), ("umount", none, 0), ("umount2", none, 0),
   ("pivot_root", none, 0), ("swapon", none, 0), ("swapoff", none, 0), ("acct", none, 0), ("uselib", none, 0),
   ("setxattr", none, 0), ("lsetxattr", none, 0), ("getxattr", none, 0), ("lgetxattr", none, 0),
   ("listxattr", none, 0), ("llistxattr", none, 0), ("removexattr", none, 0), ("lremovexattr", none, 0),
   ("inotify_add_watch", none, 1), ("name_to_handle_at", some 0, 1), ("open_tree", some 0, 1),
   ("move_mount", some 0, 1), ("fspick", some 0, 1)]

/-- Syscalls that open a file, with the register of the flags. -/
def openCalls : List (String × Nat) := [("open", 1), ("openat", 2)]

end Verif.Isolate
