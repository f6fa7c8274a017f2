import Verif.Model.Clock
import Verif.Model.Process

/-!
# Start-up and the access log's file: `app/main.cpp`, `app/proc_ctrl.cpp`, `lib/access_log.cpp`, spdlog's registry

`Model/Process.lean` takes what comes before `run_server` to succeed; here it need not. Of spdlog the
levels of loggers are modelled (1.x: `registry::initialize_logger` gives a new logger the level set last with
`set_level`; a message below its logger's level is dropped; what a sink throws is caught by the logger) and
that `basic_file_sink` opens its file for appending.
-/

namespace Ion

/-! ## The access log's file -/

/-- spdlog's registry: the level for new loggers, the level of the logger "access" if there is one, and what
its file holds. Levels are numbered as in `Args.levelNames`. -/
structure Registry where
  level : Nat := 2
  access : Option Nat := none
  file : Bytes := []
deriving DecidableEq, Repr

namespace Registry

/-- `spdlog::set_level` (app/main.cpp:107): for all loggers, and for those to come. -/
def setLevel (level : Nat) (r : Registry) : Registry := { r with level, access := r.access.map fun _ => level }

/-- `setup_access_logs` (app/main.cpp:62-75); `opens`: the file can be opened. -/
def setup (path : Bytes) (opens : Bool) (r : Registry) : Registry :=
  if path = [] then r
  else if opens then { r with access := some r.level }
  else r

/-- `AccessLog::log_request` (lib/access_log.cpp:13-15,41) with an entry; `written`: the file takes it. -/
def logRequest (entry : Bytes) (written : Bool) (r : Registry) : Registry :=
  match r.access with
  | none => r
  | some level => if level ≤ 2 && written then { r with file := r.file ++ entry ++ [0x0a] } else r

end Registry

/-- A call of `log_request` with what it finds: the clock, and whether the file takes the line. -/
structure LogCall where
  headers : List Header
  status : UInt16
  length : Nat
  peer : PeerName
  tm : Tm
  written : Bool := true

/-- The call (lib/http2_conn.cpp:281). -/
def LogCall.run (r : Registry) (c : LogCall) : Registry :=
  r.logRequest (accessEntry c.headers c.status c.length c.peer c.tm) c.written

/-- What `main` makes of the registry (app/main.cpp:107,112); `none` if the level is not understood. -/
def startLogging (args : Args) (opens : Bool) (old : Bytes) : Option Registry :=
  (args.logLevelEnum).map fun level =>
    ((({ file := old } : Registry).setLevel level).setup args.accessLogPath opens)

/-! ## Start-up -/

/-- What start-up finds: the variable OTEL_SDK_DISABLED, whether the exporter can be made (otherwise there is an
exception), whether `prctl` succeeds, whether the access log's file can be opened, and whether standard output is a
broken pipe before the level is set. -/
structure StartEnv where
  otel : Option Bytes := none
  telemetry : Bool := true
  prctl : Bool := true
  accessOpens : Bool := true
  outEarly : Bool := false

/-- What is in force when `run_server` begins. -/
structure Settings where
  telemetry : Bool
  noNewPrivs : Bool
  logging : Registry
deriving DecidableEq, Repr

/-- `configure_telemetry` (app/main.cpp:83-90): whether spans are exported. -/
def telemetryWanted (otel : Option Bytes) : Bool :=
  match otel with
  | none => true
  | some v => v ≠ b!"true"

/-- A log line on standard output, as `logLine`. -/
def line (enabled level : Nat) (broken : Bool) : Except Exit Unit :=
  if enabled ≤ level && broken then .error .sigpipe else .ok ()

/-- `main` up to `run_server` (app/main.cpp:101-112): the settings and the level, or how the process ends. An exception
out of `configure_telemetry` or `log_level_enum` is not caught. Before `set_level` the level is info. -/
def startUp (st : StartEnv) (args : Args) (outStart : Bool) (old : Bytes) : Except Exit (Settings × Nat) := do
  if telemetryWanted st.otel && !st.telemetry then .error .terminate
  line 2 2 (!telemetryWanted st.otel && st.outEarly)
  match args.logLevelEnum with
  | none => .error .terminate
  | some level =>
    line level 2 outStart
    line level (if st.prctl then 1 else 3) outStart
    if args.accessLogPath ≠ [] then line level (if st.accessOpens then 2 else 4) outStart
    .ok (⟨telemetryWanted st.otel, st.prctl,
      (({ file := old } : Registry).setLevel level).setup args.accessLogPath st.accessOpens⟩, level)

/-- `main` (app/main.cpp:92-120) with its start-up. -/
def processExit {W : Type} (st : StartEnv) (env : ProcEnv W) : Exit :=
  match env.parse with
  | .error code => .status code
  | .ok args =>
    match startUp st args env.outStart [] with
    | .error e => e
    | .ok (_, level) => runServer env args level

end Ion
