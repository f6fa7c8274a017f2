import Verif.Model.Base

/-!
# File systems and `std::filesystem`

The parts of POSIX path resolution and of `std::filesystem` that `lib/file_reader.cpp` relies on. They
are not code of ion: this is a model of documented behaviour (POSIX.1-2017 section 4.13; C++23
[fs.path.generic], [fs.path.append], [fs.op.canonical], [fs.op.weakly.canonical]).

Simplifications: the file system does not change during a request; the only errors are "no such file",
"not a directory", "too many symbolic links", "permission denied" for a directory that may not be searched, and
"name too long"; one bit says whether a regular file can be opened for reading; the limit on the length of a whole
path is ignored.
-/

namespace Ion

/-- A file name: not empty and without '/'. -/
abbrev Name := Bytes

/-- What is at a location. -/
inductive Node where
  | dir
  | file (content : Bytes) (readable : Bool)
  | link (target : Bytes)
  /-- a device, a socket or a named pipe -/
  | special
deriving DecidableEq, Repr

/-- Errors of path resolution. -/
inductive Errno where
  | noEnt
  | notDir
  | loop
  | access
  | nameTooLong
deriving DecidableEq, Repr

/-- The errors `std::filesystem::status` takes for "not found" ([fs.op.status]). -/
def Errno.absent : Errno → Bool
  | .noEnt => true
  | .notDir => true
  | _ => false

/-- A file system: what is at each location (a list of names starting at the root), the current
directory, how many symbolic links may be followed in one resolution, whether the program may search the directory
at a location, and how long a name may be (`NAME_MAX`). -/
structure FS where
  node : List Name → Option Node
  cwd : List Name := []
  maxLinks : Nat := 40
  search : List Name → Bool := fun _ => true
  nameMax : Nat := 255

/-- `std::filesystem::path`, as its iterator shows it: whether there is a root directory, the file
names, and whether a trailing separator (an empty last element) follows them. -/
structure FPath where
  abs : Bool
  comps : List Name
  trail : Bool
deriving DecidableEq, Repr

/-- Splits at every '/'. -/
def splitSlash : Bytes → List Bytes
  | [] => [[]]
  | b :: bs =>
    if b = 0x2f then [] :: splitSlash bs
    else match splitSlash bs with
      | [] => [[b]]
      | x :: xs => (b :: x) :: xs

/-- The path a string denotes: adjacent separators count as one. -/
def parsePath (s : Bytes) : FPath :=
  let segs := splitSlash s
  let comps := segs.filter (fun c => c ≠ [])
  { abs := s.head? = some 0x2f, comps, trail := comps ≠ [] && segs.getLast? = some [] }

/-- `path::string()` for the paths built here. -/
def FPath.render (p : FPath) : Bytes :=
  (if p.abs then [0x2f] else []) ++ List.intercalate [0x2f] p.comps ++ (if p.trail then [0x2f] else [])

/-- The elements the path's iterator yields. -/
def FPath.elems (p : FPath) : List Bytes :=
  (if p.abs then [[0x2f]] else []) ++ p.comps ++ (if p.trail then [[]] else [])

/-- `operator/` with a relative right-hand side. -/
def FPath.append (a b : FPath) : FPath :=
  { abs := a.abs, comps := a.comps ++ b.comps,
    trail := if b.comps = [] then decide (a.comps ≠ []) else b.trail }

namespace FS

/-- The node at a location; the root is always a directory. -/
def look (fs : FS) (loc : List Name) : Option Node := if loc = [] then some .dir else fs.node loc

/-- Path resolution from location `cur`; symbolic links are handed to `follow`. -/
def walk (fs : FS) (follow : List Name → List Name → Except Errno (List Name)) :
    List Name → List Name → Except Errno (List Name)
  | cur, [] => .ok cur
  | cur, c :: cs =>
    if fs.look cur ≠ some .dir then .error .notDir
    else if fs.search cur = false then .error .access
    else if c = b!"." then walk fs follow cur cs
    else if c = b!".." then walk fs follow cur.dropLast cs
    else
      match fs.look (cur ++ [c]) with
      | none => .error (if fs.nameMax < c.length then .nameTooLong else .noEnt)
      | some (.link target) =>
        let p := parsePath target
        follow (if p.abs then [] else cur) (p.comps ++ ((if p.trail then [b!"."] else []) ++ cs))
      | some .dir => walk fs follow (cur ++ [c]) cs
      | some (.file _ _) => walk fs follow (cur ++ [c]) cs
      | some .special => walk fs follow (cur ++ [c]) cs

/-- Path resolution that follows at most `n` symbolic links. -/
def resolve (fs : FS) : Nat → List Name → List Name → Except Errno (List Name)
  | 0 => walk fs (fun _ _ => .error .loop)
  | n + 1 => walk fs (resolve fs n)

/-- File names as system calls see them: the string ends at the first NUL; if the NUL follows a
separator, the string ends with that separator. -/
def cutNul : List Name → List Name
  | [] => []
  | c :: cs =>
    if c.contains 0 then
      let c' := c.takeWhile (· ≠ 0)
      [if c' = [] then b!"." else c']
    else c :: cutNul cs

/-- What a path handed to a system call resolves to; a trailing separator demands a directory. -/
def stat (fs : FS) (p : FPath) : Except Errno (List Name) :=
  fs.resolve fs.maxLinks (if p.abs then [] else fs.cwd)
    (cutNul (p.comps ++ if p.trail then [b!"."] else []))

/-- The same for a string. -/
def statString (fs : FS) (s : Bytes) : Except Errno (List Name) :=
  if s = [] then .error .noEnt else fs.stat (parsePath s)

/-- `std::filesystem::absolute`. -/
def absolute (fs : FS) (p : FPath) : FPath :=
  if p.abs then p else FPath.append ⟨true, fs.cwd, false⟩ p

/-- Removes '.' and '..' elements of an absolute path given as a reversed stack of names. -/
def normalize : List Name → List Name → List Name
  | stack, [] => stack.reverse
  | stack, c :: cs =>
    if c = b!"." then normalize stack cs
    else if c = b!".." then normalize stack.tail cs
    else normalize (c :: stack) cs

/-- `lexically_normal` of an absolute path. -/
def lexicallyNormal (p : FPath) : FPath :=
  let comps := normalize [] p.comps
  { abs := true, comps,
    trail := comps ≠ [] &&
      (p.trail || p.comps.getLast? = some b!"." || p.comps.getLast? = some b!"..") }

/-- The longest beginning of an absolute path that exists, resolved, and the elements after it. -/
def existingPrefix (fs : FS) : (rev dne : List Name) → Except Errno (List Name × List Name)
  | [], dne => .ok ([], dne)
  | c :: rev, dne =>
    match fs.stat ⟨true, (c :: rev).reverse, false⟩ with
    | .ok loc => .ok (loc, dne)
    | .error e => if e.absent then existingPrefix fs rev (c :: dne) else .error e

/-- `std::filesystem::weakly_canonical` of an absolute path. -/
def weaklyCanonical (fs : FS) (p : FPath) : Except Errno FPath :=
  match fs.stat p with
  | .ok loc => .ok ⟨true, loc, false⟩
  | .error e =>
    if e.absent then
      match fs.existingPrefix p.comps.reverse [] with
      | .error e => .error e
      | .ok (loc, dne) => .ok (lexicallyNormal ⟨true, loc ++ dne, p.trail⟩)
    else .error e

end FS
end Ion
