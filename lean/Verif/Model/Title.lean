import Verif.Model.Cli

/-!
# The title of the process

The administrator of several judges tells their processes apart by the titles. The name of the judge is a text here; `setproctitle` itself, and how
many letters of a title a system shows, are not modelled.
-/

namespace Verif.Title

/-- A text. (judge.py:560-564) -/
abbrev Str := List Char

/-- `make_host_port`: an address of IPv6 gets brackets, a connection with TLS an `s`. The port is of `type=int`. (judge.py:560-564, judgeenv.py:68) -/
def hostPort (host : Str) (port : Int) (secure : Bool) : Str :=
  (if ':' ∈ host then '[' :: host ++ [']'] else host) ++ ':' :: (Cli.decimal port ++ if secure then ['s'] else [])

/-- `'DMOJ Judge %s on %s' % (env['id'], make_host_port(judgeenv))` (judge.py:598) -/
def title (id host : Str) (port : Int) (secure : Bool) : Str :=
  "DMOJ Judge ".toList ++ id ++ " on ".toList ++ hostPort host port secure

end Verif.Title
