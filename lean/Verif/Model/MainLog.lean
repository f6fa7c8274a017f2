import Verif.Model.Startup

/-!
# What `main` logs itself: `app/main.cpp`, `app/proc_ctrl.cpp`, `app/status_page.cpp`

Messages with the numbers of their levels as in `Args.levelNames`, whether or not the level lets them be written. What the
server, its connections and the handlers log in between is left out (`Model/ServerLog.lean` and others). Standard output is
taken to be no broken pipe.
-/

namespace Ion

/-- A message of a level, which can be critical. -/
abbrev Note := Nat × Bytes

/-- What is logged but comes from elsewhere: the version, the id of the instance, the errors of `prctl` and of the access
log, and `what()` of the exception that is caught. -/
structure MainTexts where
  version : Bytes
  instanceId : Bytes
  prctl : Bytes
  access : Bytes
  what : Bytes

/-- `configure_telemetry` (app/main.cpp:83-90) if there is no exception. -/
def telemetryNotes (st : StartEnv) : List Note :=
  if telemetryWanted st.otel then [] else [(2, b!"OpenTelemetry disabled.")]

/-- `enable_no_new_privs` (app/proc_ctrl.cpp:11-22). -/
def privsNotes (st : StartEnv) (t : MainTexts) : List Note :=
  if st.prctl then [(1, b!"PR_SET_NO_NEW_PRIVS enabled")] else [(3, b!"failed to set PR_SET_NO_NEW_PRIVS: " ++ t.prctl)]

/-- `setup_access_logs` (app/main.cpp:62-75). -/
def accessNotes (st : StartEnv) (args : Args) (t : MainTexts) : List Note :=
  if args.accessLogPath = [] then []
  else if st.accessOpens then [(2, b!"writing access logs to " ++ args.accessLogPath)]
  else [(4, b!"failed to setup access logs: " ++ t.access)]

/-- `run_server` between the construction of the server and `start` (app/main.cpp:20-40, app/status_page.cpp:33-37). -/
def setupNotes (args : Args) (t : MainTexts) : List Note :=
  (if args.underTest then [(2, b!"running under test mode")] else []) ++
  (if args.statusPage then [(2, b!"status page enabled: /_ion/status"), (2, b!"instance id: " ++ t.instanceId)] else []) ++
  match args.staticMap with
  | [url, root] => [(2, b!"serving static files at '" ++ url ++ b!"' -> '" ++ root ++ b!"'")]
  | _ => []

/-- The handler of exceptions in `main` (app/main.cpp:116-119). -/
def fatalNotes (t : MainTexts) : List Note := [(5, b!"fatal error: " ++ t.what)]

/-- `run_server` and the end of the `try` block (app/main.cpp:19-60,113-119), as `runServer`. -/
def runServerNotes {W : Type} (env : ProcEnv W) (args : Args) (t : MainTexts) : List Note :=
  match constructServer env.fs env.ssl args.toServerConfig with
  | .err _ => fatalNotes t
  | .ub _ => []
  | .ok () =>
    setupNotes args t ++
      match ListenSock.make env.little args.port env.listen {} with
      | (.error _, _) => fatalNotes t
      | (.ok sock, _) =>
        let s := Server.begin env.world sock.fd env.pollerCreated env.ctlFails
        match Server.run (env.cfg args) env.iters (env.stops.foldl Server.stop s) with
        | .returned _ _ => [(2, b!"exiting")]
        | .threw (.process .escaped) => []
        | .threw _ => fatalNotes t
        | .ub _ => []
        | .running _ => []

/-- `main` (app/main.cpp:92-120), as `processExit`. -/
def mainNotes {W : Type} (st : StartEnv) (env : ProcEnv W) (t : MainTexts) : List Note :=
  match env.parse with
  | .error _ => []
  | .ok args =>
    if telemetryWanted st.otel && !st.telemetry then []
    else
      telemetryNotes st ++
        match args.logLevelEnum with
        | none => []
        | some _ =>
          (2, b!"ion " ++ t.version ++ b!" started ⚡️") ::
            (privsNotes st t ++ accessNotes st args t ++ runServerNotes env args t)

end Ion
