import Verif.Model.App

/-!
# Command-line options: `app/args.cpp`

Not modelled: how CLI11 splits the command line into options and values, `--help` and `--version`. CLI11 keeps
references to the variables that options are bound to; while it parses, it checks the values of the options
that were given and writes them to these variables. An environment variable stands for an option that was not
given, unless it is empty. `default_val` only checks the default; it does not write it.
-/

namespace Ion

/-- The options on the command line; `none`: not given. -/
structure CommandLine where
  port : Option Nat := none
  logLevel : Option Bytes := none
  static : Option (Bytes × Bytes) := none
  accessLog : Option Bytes := none
  cleartext : Option Bool := none
  tlsCertPath : Option Bytes := none
  tlsKeyPath : Option Bytes := none
  custom404FilePath : Option Bytes := none
  underTest : Option Bool := none
  statusPage : Option Bool := none
deriving DecidableEq, Repr

/-- The environment variables `ION_TLS_CERT_PATH` and `ION_TLS_KEY_PATH`; empty if they are not set. -/
structure Environ where
  certPath : Bytes := []
  keyPath : Bytes := []
deriving DecidableEq, Repr

/-- A write through one of the references CLI11 keeps. -/
inductive OptWrite where
  | port (n : Nat)
  | logLevel (v : Bytes)
  | static (v : List Bytes)
  | accessLog (v : Bytes)
  | cleartext (v : Bool)
  | certPath (v : Bytes)
  | keyPath (v : Bytes)
  | custom404 (v : Bytes)
  | underTest (v : Bool)
  | statusPage (v : Bool)
deriving DecidableEq, Repr

/-- The variable each option is bound to (app/args.cpp:10-39). -/
def OptWrite.run (a : Args) : OptWrite → Args
  | port n => { a with port := UInt16.ofNat n }
  | logLevel v => { a with logLevel := v }
  | static v => { a with staticMap := v }
  | accessLog v => { a with accessLogPath := v }
  | cleartext v => { a with cleartext := v }
  | certPath v => { a with certPath := v }
  | keyPath v => { a with keyPath := v }
  | custom404 v => { a with status404FilePath := v }
  | underTest v => { a with underTest := v }
  | statusPage v => { a with statusPage := v }

/-- The checks of the values (app/args.cpp:12, 17-18). -/
def OptWrite.checked : OptWrite → Bool
  | port n => decide (1 ≤ n ∧ n ≤ 65535)
  | logLevel v => Args.levelAccepted v
  | _ => true

/-- An option with an environment variable (app/args.cpp:28-32): the command line goes first. -/
def orEnv (given : Option Bytes) (env : Bytes) : Option Bytes :=
  match given with
  | some v => some v
  | none => if env = [] then none else some env

/-- The writes for a command line, in the order in which the options are registered (app/args.cpp:10-39). -/
def CommandLine.writes (c : CommandLine) (e : Environ) : List OptWrite :=
  (c.port.map OptWrite.port).toList ++ (c.logLevel.map OptWrite.logLevel).toList ++
  (c.static.map fun x => OptWrite.static [x.1, x.2]).toList ++ (c.accessLog.map OptWrite.accessLog).toList ++
  (c.cleartext.map OptWrite.cleartext).toList ++ ((orEnv c.tlsCertPath e.certPath).map OptWrite.certPath).toList ++
  ((orEnv c.tlsKeyPath e.keyPath).map OptWrite.keyPath).toList ++
  (c.custom404FilePath.map OptWrite.custom404).toList ++ (c.underTest.map OptWrite.underTest).toList ++
  (c.statusPage.map OptWrite.statusPage).toList

/-- `register_opts` and `parse` (app/args.cpp:7-44, app/main.cpp:94-99). The options are bound to the members of
a local variable that is returned by value. `elided` says whether the compiler makes that variable and the one
in `main` the same object, which C++ allows but does not ask for; otherwise the references point to an object
that is no more when CLI11 writes. A failed check ends the program with status 105. -/
def parseArgs (elided : Bool) (c : CommandLine) (e : Environ) : Outcome Nat Args :=
  let ws := c.writes e
  if !elided && ws ≠ [] then .ub .dangling
  else if ws.all OptWrite.checked then .ok (ws.foldl OptWrite.run {}) else .err 105

end Ion
