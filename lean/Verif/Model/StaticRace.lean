import Verif.Model.StaticFiles

/-!
# Static files while other processes change the file system

`lib/static_file_handler.cpp` calls the functions of `lib/file_reader.cpp` one after the other, and each looks the
path up again. Here each of them sees a file system of its own. Simplification: what one function does is not
interrupted, except that a file can change between the question for its size and reading it.
-/

namespace Ion

/-- The file systems one request meets: when `sanitize_path`, `is_readable` and then `read_file` or
`get_file_size` are called; and what the opened file holds when it is read, given what it held when it was
opened. -/
structure Views where
  check : FS
  readable : FS
  opened : FS
  content : Bytes → Bytes := id

namespace FileReader

/-- `FileReader::read_file` (lib/file_reader.cpp:13-36): the size is asked for first, then that many octets are
read, and it fails if there are fewer. -/
def readFileOver (v : Views) (path : Bytes) : Option Bytes :=
  match readFile v.opened path with
  | none => none
  | some old =>
    let new := v.content old
    if new.length < old.length then none else some (new.take old.length)

end FileReader

namespace StaticFileHandler

/-- `get_response` (lib/static_file_handler.cpp:37-48). -/
def getResponseOver (v : Views) (path mimeType : Bytes) : HttpResponse :=
  match FileReader.readFileOver v path with
  | none => { status := 500 }
  | some content => { status := 200, body := content, headers := [⟨b!"content-type", mimeType⟩] }

/-- `file_response` (lib/static_file_handler.cpp:64-72). -/
def fileResponseOver (v : Views) (path : Bytes) (headRequest : Bool) : HttpResponse :=
  if !FileReader.isReadable v.readable path then { status := 404 }
  else
    let mimeType := FileReader.getMimeType path
    if headRequest then headResponse v.opened path mimeType else getResponseOver v path mimeType

/-- `handle` (lib/static_file_handler.cpp:74-84). -/
def handleOver (h : StaticFileHandler) (v : Views) (path : Bytes) (isHead : Bool) : HttpResponse :=
  match FileReader.sanitizePath v.check h.filesystemRoot (h.getRelativePath path) with
  | none => { status := 403 }
  | some safe => fileResponseOver v safe isHead

end StaticFileHandler
end Ion
