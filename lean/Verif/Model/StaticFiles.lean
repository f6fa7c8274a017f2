import Verif.Model.FileSystem
import Verif.Model.Connection

/-!
# Static files: `lib/file_reader.cpp`, `lib/static_file_handler.cpp`

Not modelled: logging (for that see `Model/StaticLog.lean`).
-/

namespace Ion

namespace FileReader

/-- `FileReader::is_readable` (lib/file_reader.cpp:84-97). -/
def isReadable (fs : FS) (path : Bytes) : Bool :=
  match fs.statString path with
  | .error _ => false
  | .ok loc =>
    match fs.look loc with
    | some (.file _ readable) => readable
    | _ => false

/-- `FileReader::read_file` (lib/file_reader.cpp:13-36), of a regular file; the file is read whole.
Opening anything else is taken to fail. -/
def readFile (fs : FS) (path : Bytes) : Option Bytes :=
  match fs.statString path with
  | .error _ => none
  | .ok loc =>
    match fs.look loc with
    | some (.file content true) => some content
    | _ => none

/-- `FileReader::get_file_size` (lib/file_reader.cpp:38-49). -/
def getFileSize (fs : FS) (path : Bytes) : Option Nat :=
  match fs.statString path with
  | .error _ => none
  | .ok loc =>
    match fs.look loc with
    | some (.file content _) => some content.length
    | _ => none

/-- The table of lib/file_reader.cpp:52-72. -/
def mimeTypes : List (Bytes × Bytes) :=
  [(b!".html", b!"text/html; charset=utf-8"),
   (b!".htm", b!"text/html; charset=utf-8"),
   (b!".css", b!"text/css; charset=utf-8"),
   (b!".js", b!"application/javascript; charset=utf-8"),
   (b!".json", b!"application/json"),
   (b!".xml", b!"application/xml"),
   (b!".png", b!"image/png"),
   (b!".jpg", b!"image/jpeg"),
   (b!".jpeg", b!"image/jpeg"),
   (b!".gif", b!"image/gif"),
   (b!".svg", b!"image/svg+xml"),
   (b!".ico", b!"image/x-icon"),
   (b!".txt", b!"text/plain; charset=utf-8"),
   (b!".pdf", b!"application/pdf"),
   (b!".zip", b!"application/zip"),
   (b!".woff", b!"font/woff"),
   (b!".woff2", b!"font/woff2"),
   (b!".ttf", b!"font/ttf"),
   (b!".webp", b!"image/webp")]

/-- `path.substr(path.find_last_of('.'))`, if there is a '.'. -/
def lastExtension : Bytes → Option Bytes
  | [] => none
  | b :: bs =>
    match lastExtension bs with
    | some e => some e
    | none => if b = 0x2e then some (b :: bs) else none

/-- `FileReader::get_mime_type` (lib/file_reader.cpp:51-82). -/
def getMimeType (path : Bytes) : Bytes :=
  match lastExtension path with
  | none => b!"application/octet-stream"
  | some ext => (mimeTypes.lookup ext).getD b!"application/octet-stream"

/-- The comparison loop of `sanitize_path` (lib/file_reader.cpp:121-135). -/
def within : List Bytes → List Bytes → Bool
  | [], _ => true
  | _ :: _, [] => false
  | b :: bs, f :: fs => b = f && within bs fs

/-- `FileReader::sanitize_path` (lib/file_reader.cpp:99-143). -/
def sanitizePath (fs : FS) (baseDir requestedPath : Bytes) : Option Bytes :=
  let baseAbs := fs.absolute (parsePath baseDir)
  match fs.stat baseAbs with
  | .error _ => none
  | .ok loc =>
    if fs.look loc ≠ some .dir then none
    else
      match fs.weaklyCanonical baseAbs with
      | .error _ => none
      | .ok base =>
        let requested := parsePath requestedPath
        let combined := if requested.abs then requested else base.append requested
        match fs.weaklyCanonical combined with
        | .error _ => none
        | .ok full => if within base.elems full.elems then some full.render else none

end FileReader

/-- `StaticFileHandler` (lib/static_file_handler.h:14-15). -/
structure StaticFileHandler where
  urlPrefix : Bytes
  filesystemRoot : Bytes
deriving DecidableEq, Repr

namespace StaticFileHandler

/-- `matches` (lib/static_file_handler.cpp:14-16). -/
def «matches» (h : StaticFileHandler) (path : Bytes) : Bool := h.urlPrefix.isPrefixOf path

/-- `get_relative_path` (lib/static_file_handler.cpp:18-35); `substr(length)` of a shorter string would
throw, but `get_handler` only calls this for matching paths. -/
def getRelativePath (h : StaticFileHandler) (urlPath : Bytes) : Bytes :=
  let rel := urlPath.drop h.urlPrefix.length
  let rel := if rel = [] || rel = b!"/" then b!"/index.html" else rel
  let rel := if rel.head? = some 0x2f then rel.drop 1 else rel
  rel.takeWhile (· ≠ 0x3f)

/-- `get_response` (lib/static_file_handler.cpp:37-48). -/
def getResponse (fs : FS) (path mimeType : Bytes) : HttpResponse :=
  match FileReader.readFile fs path with
  | none => { status := 500 }
  | some content => { status := 200, body := content, headers := [⟨b!"content-type", mimeType⟩] }

/-- `head_response` (lib/static_file_handler.cpp:50-62). -/
def headResponse (fs : FS) (path mimeType : Bytes) : HttpResponse :=
  match FileReader.getFileSize fs path with
  | none => { status := 500 }
  | some size => { status := 200,
                   headers := [⟨b!"content-length", decimal size⟩, ⟨b!"content-type", mimeType⟩] }

/-- `file_response` (lib/static_file_handler.cpp:64-72). -/
def fileResponse (fs : FS) (path : Bytes) (headRequest : Bool) : HttpResponse :=
  if !FileReader.isReadable fs path then { status := 404 }
  else
    let mimeType := FileReader.getMimeType path
    if headRequest then headResponse fs path mimeType else getResponse fs path mimeType

/-- `handle` (lib/static_file_handler.cpp:74-84). -/
def handle (h : StaticFileHandler) (fs : FS) (path : Bytes) (isHead : Bool) : HttpResponse :=
  match FileReader.sanitizePath fs h.filesystemRoot (h.getRelativePath path) with
  | none => { status := 403 }
  | some safe => fileResponse fs safe isHead

end StaticFileHandler
end Ion
