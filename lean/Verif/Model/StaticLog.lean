import Verif.Model.FrameLog
import Verif.Model.StaticFiles

/-!
# What the static file handler logs: `lib/file_reader.cpp`, `lib/static_file_handler.cpp`

One function `…Lines` beside each function of `Model/StaticFiles.lean`: the lines it passes to spdlog, in order. The
texts of errors of the system (`what()` and `message()`) are the parameter `why`. As in `Model/StaticFiles.lean`, a file
that can be opened can be read whole, so that the two other errors of `read_file` (lib/file_reader.cpp:21-32) do not occur.
-/

namespace Ion

namespace FileReader

/-- `FileReader::sanitize_path` (lib/file_reader.cpp:99-143). `fs::exists` throws if the error is not that there is
no such file. -/
def sanitizeLines (why : Bytes) (fs : FS) (baseDir requestedPath : Bytes) : List Line :=
  let noBase := [(.err, b!"Path error: base directory does not exist or is not a directory: " ++ baseDir)]
  let thrown := [(.err, b!"Path error: " ++ why)]
  let baseAbs := fs.absolute (parsePath baseDir)
  match fs.stat baseAbs with
  | .error e => if e.absent then noBase else thrown
  | .ok loc =>
    if fs.look loc ≠ some .dir then noBase
    else
      match fs.weaklyCanonical baseAbs with
      | .error _ => thrown
      | .ok base =>
        let requested := parsePath requestedPath
        let combined := if requested.abs then requested else base.append requested
        match fs.weaklyCanonical combined with
        | .error _ => thrown
        | .ok full =>
          if within base.elems full.elems then []
          else [(.warn, b!"Directory traversal attempt blocked: " ++ requestedPath ++ b!" (base: " ++ baseDir ++ b!")")]

/-- `FileReader::read_file` (lib/file_reader.cpp:13-36). -/
def readFileLines (fs : FS) (path : Bytes) : List Line :=
  match readFile fs path with
  | none => [(.warn, b!"Failed to open file: " ++ path)]
  | some content => [(.debug, b!"Read file: " ++ path ++ b!" (" ++ decimal content.length ++ b!" bytes)")]

/-- `FileReader::get_file_size` (lib/file_reader.cpp:38-49). -/
def getFileSizeLines (why : Bytes) (fs : FS) (path : Bytes) : List Line :=
  match getFileSize fs path with
  | none => [(.warn, b!"Failed to get file size for " ++ path ++ b!": " ++ why)]
  | some _ => []

end FileReader

namespace StaticFileHandler

/-- `get_response` (lib/static_file_handler.cpp:37-48). -/
def getResponseLines (fs : FS) (path mimeType : Bytes) : List Line :=
  FileReader.readFileLines fs path ++
    match FileReader.readFile fs path with
    | none => [(.err, b!"failed to read file: " ++ path)]
    | some content => [(.debug, b!"serving static file: " ++ path ++ b!" (" ++ decimal content.length ++ b!" bytes, " ++ mimeType ++ b!")")]

/-- `head_response` (lib/static_file_handler.cpp:50-62). -/
def headResponseLines (why : Bytes) (fs : FS) (path mimeType : Bytes) : List Line :=
  FileReader.getFileSizeLines why fs path ++
    match FileReader.getFileSize fs path with
    | none => [(.err, b!"failed to get file size: " ++ path)]
    | some size => [(.debug, b!"Returning metadata for static file: " ++ path ++ b!" (" ++ decimal size ++ b!" bytes, " ++ mimeType ++ b!")")]

/-- `file_response` (lib/static_file_handler.cpp:64-72). -/
def fileResponseLines (why : Bytes) (fs : FS) (path : Bytes) (headRequest : Bool) : List Line :=
  if !FileReader.isReadable fs path then [(.debug, b!"file not found or not readable: " ++ path)]
  else
    let mimeType := FileReader.getMimeType path
    if headRequest then headResponseLines why fs path mimeType else getResponseLines fs path mimeType

/-- `handle` (lib/static_file_handler.cpp:74-84). -/
def handleLines (h : StaticFileHandler) (why : Bytes) (fs : FS) (path : Bytes) (isHead : Bool) : List Line :=
  FileReader.sanitizeLines why fs h.filesystemRoot (h.getRelativePath path) ++
    match FileReader.sanitizePath fs h.filesystemRoot (h.getRelativePath path) with
    | none => [(.warn, b!"invalid file path requested: " ++ path)]
    | some safe => fileResponseLines why fs safe isHead

end StaticFileHandler
end Ion
