import Verif.Model.Policy
import Verif.Spec.Syscalls

/-! # Specification: what a policy says about a named call -/

namespace Verif.Policy.Spec
open Verif.Syscalls Verif.Policy

/-- The last entry about the call (under any of its names) is `h`. -/
def Decides (p : List (String × Handler)) (name : String) (h : Handler) : Prop :=
  ∃ pre nm post, p = pre ++ (nm, h) :: post ∧ SameCall aliasFile nm name ∧ ∀ q ∈ post, ¬ SameCall aliasFile q.1 name

/-- The policy says nothing about the call. -/
def Silent (p : List (String × Handler)) (name : String) : Prop := ∀ q ∈ p, ¬ SameCall aliasFile q.1 name

/-- The call may be executed in some situation. -/
def Possible (p : List (String × Handler)) (name : String) : Prop := ∃ h s, Decides p name h ∧ h.run s = .exec

/-- Calls that reach beyond the program's own process and open files: other processes, the network, devices and
modules, users and groups, namespaces, the clock. -/
def escapes : List String :=
  ["ptrace", "process_vm_readv", "process_vm_writev", "kcmp", "tkill", "rt_sigqueueinfo", "rt_tgsigqueueinfo",
   "socket", "socketcall", "bind", "listen", "accept", "accept4", "sendto", "sendmsg", "sendmmsg", "recvfrom",
   "init_module", "finit_module", "delete_module", "kexec_load", "kexec_file_load", "reboot", "iopl", "ioperm",
   "bpf", "perf_event_open", "userfaultfd", "io_uring_setup", "io_uring_enter", "keyctl", "add_key", "request_key",
   "setuid", "setgid", "setreuid", "setregid", "setresuid", "setresgid", "setgroups", "setfsuid", "setfsgid", "capset",
   "setuid32", "setgid32", "setreuid32", "setregid32", "setresuid32", "setresgid32", "setgroups32",
   "mount", "umount", "umount2", "pivot_root", "chroot", "unshare", "setns", "swapon", "swapoff", "acct", "quotactl",
   "settimeofday", "stime", "clock_settime", "adjtimex", "sethostname", "setdomainname", "syslog", "vhangup",
   "open_by_handle_at", "name_to_handle_at", "fsopen", "fsmount", "fsconfig", "move_mount", "open_tree",
   "pidfd_open", "pidfd_getfd", "pidfd_send_signal", "vfork", "clone3", "execveat", "seccomp", "setpgid", "setsid"]

/-- Calls that change the directory tree or the attributes of files by path. -/
def treeChanges : List String :=
  ["mkdir", "mkdirat", "rmdir", "unlink", "unlinkat", "rename", "renameat", "renameat2", "link", "linkat", "symlink",
   "symlinkat", "creat", "chmod", "fchmodat", "fchmod", "chown", "lchown", "fchown", "chown32", "lchown32", "fchown32", "fchownat",
   "truncate", "truncate64", "mknod", "mknodat", "utime", "utimes", "utimensat", "futimesat", "setxattr", "lsetxattr",
   "fsetxattr", "removexattr", "lremovexattr", "fremovexattr", "chdir", "fchdir", "openat2"]

end Verif.Policy.Spec
