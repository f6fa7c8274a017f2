import Verif.Model.Connection
import Verif.Model.StaticFiles

/-!
# Spans and log lines: `lib/http2_conn.cpp`, `lib/static_file_handler.cpp`, `lib/file_reader.cpp`, `app/trace_id_flag.cpp`

What the program reports about requests, as functions beside the code that answers them. Of the log lines those are
modelled whose text contains octets of the client. Not modelled: the texts of exceptions, times and identifiers of
spans.
-/

namespace Ion

/-! ## Spans -/

/-- The attributes of a span "http_request" when it ends. -/
structure Span where
  method : Option Bytes := none
  target : Option Bytes := none
  clientIp : Option Bytes := none
  status : Option UInt16 := none
deriving DecidableEq, Repr

/-- `process_request` (lib/http2_conn.cpp:443-468). -/
def requestSpan {W : Type} (cfg : Cfg W) (world : W) (clientIp : Bytes) (headers : List Header) : Span :=
  match Sim.getHeader headers b!":path", Sim.getHeader headers b!":method" with
  | some path, some method =>
    let span : Span := { method := some method, target := some path, clientIp := some clientIp }
    match (cfg.getHandler path method ⟨method, path, headers⟩ world).1 with
    | .resp r => { span with status := some r.status }
    | .stdExn => { span with status := some 500 }
    | .otherExn => span
  | _, _ => {}

/-- The spans of `process_frame` (lib/http2_conn.cpp:247-267). -/
def frameSpans {W : Type} (cfg : Cfg W) (s : Sim W) (clientIp : Bytes) (f : FrameReader) : List Span :=
  if f.header.type = 0x01 then
    match (f.headersBlock : Outcome Stop Bytes) with
    | .ok block =>
      match decodeBlock s.dec block with
      | .ok headers _ => [requestSpan cfg s.world clientIp headers]
      | _ => [{}]
    | _ => [{}]
  else []

/-! ## Log lines -/

/-- The pattern "[%Y-%m-%d %H:%M:%S.%e] [%l] %J%v" (app/main.cpp:105) with the trace of the current span, if it is valid
(app/trace_id_flag.cpp:7-19), and spdlog's end of line. -/
def logText (time level : Bytes) (trace : Option Bytes) (message : Bytes) : Bytes :=
  b!"[" ++ time ++ b!"] [" ++ level ++ b!"] " ++
    (match trace with | some id => b!"[" ++ id ++ b!"] " | none => []) ++ message ++ [0x0a]

/-- The line for a header field at level debug (lib/http2_conn.cpp:263-265). -/
def headerMessage (h : Header) : Bytes := b!" - request header: " ++ h.name ++ b!": " ++ h.value

/-- The warnings of `sanitize_path` (lib/file_reader.cpp:118-136). -/
def sanitizeMessages (fs : FS) (baseDir requestedPath : Bytes) : List Bytes :=
  let baseAbs := fs.absolute (parsePath baseDir)
  match fs.stat baseAbs with
  | .error _ => []
  | .ok loc =>
    if fs.look loc ≠ some .dir then []
    else
      match fs.weaklyCanonical baseAbs with
      | .error _ => []
      | .ok base =>
        let requested := parsePath requestedPath
        let combined := if requested.abs then requested else base.append requested
        match fs.weaklyCanonical combined with
        | .error _ => []
        | .ok full =>
          if FileReader.within base.elems full.elems then []
          else [b!"Directory traversal attempt blocked: " ++ requestedPath ++ b!" (base: " ++ baseDir ++ b!")"]

/-- The warnings of `handle` (lib/static_file_handler.cpp:74-81). -/
def StaticFileHandler.messages (h : StaticFileHandler) (fs : FS) (path : Bytes) : List Bytes :=
  sanitizeMessages fs h.filesystemRoot (h.getRelativePath path) ++
  match FileReader.sanitizePath fs h.filesystemRoot (h.getRelativePath path) with
  | none => [b!"invalid file path requested: " ++ path]
  | some _ => []

end Ion
