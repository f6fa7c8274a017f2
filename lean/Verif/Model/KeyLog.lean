import Verif.Model.Base

/-!
# The TLS key log: `lib/transports/tls_context.cpp`, lines 42-49

OpenSSL calls the key log callback with one line of text for each secret it derives. The line is a
NUL-terminated string, so it contains no NUL; OpenSSL's lines contain no line feed either.
-/

namespace Ion
namespace KeyLog

/-- What the callback can see and change: whether a file of a name can be opened for appending (it is
created if it does not exist), and what the files contain (nothing for those that do not exist). -/
structure Disk where
  opens : Bytes → Bool
  content : Bytes → Option Bytes

/-- `std::ofstream file(name, std::ios::app)` and, if it is open, `file << line << '\n'`
(lib/transports/tls_context.cpp:44-47). -/
def append (d : Disk) (name line : Bytes) : Disk :=
  if d.opens name then
    { d with content := fun n => if n = name then some ((d.content name).getD [] ++ line ++ [0x0a]) else d.content n }
  else d

/-- The callback (lib/transports/tls_context.cpp:42-49); `var` is `std::getenv("SSLKEYLOGFILE")`. -/
def callback (d : Disk) (var : Option Bytes) (line : Bytes) : Disk :=
  match var with
  | some name => append d name line
  | none => d

/-- The calls during the life of the process, each with the value of the variable at the time. -/
def calls (d : Disk) (l : List (Option Bytes × Bytes)) : Disk := l.foldl (fun d c => callback d c.1 c.2) d

end KeyLog
end Ion
