import Verif.Model.Assoc

/-!
# The kernel's side: descriptors and the epoll interest list

`file` is the open socket behind a descriptor; it has a number of its own, so that a descriptor number
used again refers to another file. Only one thread runs, and descriptors are not duplicated.
-/

namespace Ion

/-- Operation of `epoll_ctl`. -/
inductive CtlOp where
  | add
  | mod
  | del
deriving DecidableEq, Repr

/-- Descriptors in use (with the file behind each), files closed (newest first), the number of `close`
calls on a descriptor that was not open, the next file number, and the interest list of the epoll
instance. -/
structure Os where
  files : Assoc Nat := []
  closed : List Nat := []
  bad : Nat := 0
  next : Nat := 0
  interest : Assoc UInt32 := []
deriving DecidableEq, Repr

namespace Os

/-- A new file gets descriptor `fd`. -/
def install (os : Os) (fd : Nat) : Os :=
  { os with files := os.files.put fd os.next, next := os.next + 1 }

/-- `close(2)`: a closed file leaves the interest list. -/
def close (os : Os) (fd : Nat) : Os :=
  match os.files.get fd with
  | some file =>
    { os with files := os.files.del fd, closed := file :: os.closed, interest := os.interest.del fd }
  | none => { os with bad := os.bad + 1 }

/-- `epoll_ctl(2)`: `EBADF`, `EEXIST` and `ENOENT` as documented; adding and modifying may fail for other
reasons (`fails`). -/
def ctl (os : Os) (op : CtlOp) (fd : Nat) (events : UInt32) (fails : Bool) : Bool × Os :=
  if !os.files.has fd then (false, os)
  else
    match op with
    | .add =>
      if os.interest.has fd || fails then (false, os)
      else (true, { os with interest := os.interest.put fd events })
    | .mod =>
      if !os.interest.has fd || fails then (false, os)
      else (true, { os with interest := os.interest.put fd events })
    | .del =>
      if !os.interest.has fd then (false, os)
      else (true, { os with interest := os.interest.del fd })

end Os
end Ion
