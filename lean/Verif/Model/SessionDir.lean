import Verif.Go

/-!
# The directory of the file session manager

Models `NewDefaultSessionManager` (defaultSessionManager.go:52-91) and, of `OnSessionCreated` and `OnSessionLookup`, the
opening of the file (defaultSessionManager.go:37, 120), together with as much of a Unix file system as decides whether
they succeed: directories, files, and the permissions of directories.

Simplifications: paths are absolute and clean, given as their elements; no symbolic links; everything belongs to the user
of the process, so that the bits of the owner count (a directory the process may use as a member of a group or as anybody
is one with these bits set); files can be read and written by their owner (they are created with mode 0640,
defaultSessionManager.go:37); nothing else changes the file system meanwhile.
-/

set_option autoImplicit false

namespace Webwire.Dir

/-- Permissions of the owner. Used by defaultSessionManager.go:69, 72. -/
structure Perm where
  r : Bool
  w : Bool
  x : Bool
  deriving DecidableEq, Repr

/-- An inode. Used by defaultSessionManager.go:69, 72. -/
inductive Node
  | dir (p : Perm)
  | file
  deriving DecidableEq, Repr

/-- A path from the root. defaultSessionManager.go:52, 95. -/
abbrev Path := List Bytes

/-- What there is. Used by defaultSessionManager.go:37, 69, 72, 120. -/
abbrev FS := Path → Option Node

/-- The process. Calls defaultSessionManager.go:52. -/
structure Proc where
  /-- permissions are not checked -/
  root : Bool
  /-- the permissions of the owner that new directories do not get -/
  umask : Perm

/-- System errors. defaultSessionManager.go:70, 79, 121. -/
inductive Errno
  | noent
  | acces
  | notdir
  | exist
  | isdir
  deriving DecidableEq, Repr

/-- Path resolution: all directories on the way have to be there and to be searchable. Part of
defaultSessionManager.go:37, 69, 72, 120. -/
def walk (pr : Proc) (fs : FS) (here : Path) : Path → Except Errno Unit
  | [] => .ok ()
  | c :: cs =>
    match fs here with
    | none => .error .noent
    | some .file => .error .notdir
    | some (.dir p) => if pr.root || p.x then walk pr fs (here ++ [c]) cs else .error .acces

/-- stat(2), and lstat(2). defaultSessionManager.go:69, 120. -/
def stat (pr : Proc) (fs : FS) (p : Path) : Except Errno Node :=
  match walk pr fs [] p with
  | .error e => .error e
  | .ok () =>
    match fs p with
    | none => .error .noent
    | some n => .ok n

/-- Whether names can be added to the directory, once it is reached. Part of defaultSessionManager.go:37, 72. -/
def writable (pr : Proc) (fs : FS) (p : Path) : Bool :=
  match fs p with
  | some (.dir q) => pr.root || q.w && q.x
  | _ => false

/-- mkdir(2). Part of defaultSessionManager.go:72. -/
def mkdir (pr : Proc) (fs : FS) (p : Path) (mode : Perm) : Except Errno FS :=
  match walk pr fs [] p with
  | .error e => .error e
  | .ok () =>
    match fs p with
    | some _ => .error .exist
    | none =>
      if writable pr fs p.dropLast then
        .ok fun q => if q = p then
          some (.dir ⟨mode.r && !pr.umask.r, mode.w && !pr.umask.w, mode.x && !pr.umask.x⟩) else fs q
      else .error .acces

/-- open(2) with O_WRONLY|O_CREATE|O_TRUNC, as ioutil.WriteFile does (defaultSessionManager.go:37). -/
def openCreate (pr : Proc) (fs : FS) (p : Path) : Except Errno FS :=
  match walk pr fs [] p with
  | .error e => .error e
  | .ok () =>
    match fs p with
    | some (.dir _) => .error .isdir
    | some .file => .ok fs
    | none => if writable pr fs p.dropLast then .ok fun q => if q = p then some .file else fs q else .error .acces

/-- os.MkdirAll; the path is given backwards, the elements nearest to the root last. defaultSessionManager.go:72. -/
def mkdirAll (pr : Proc) (fs : FS) (mode : Perm) : Path → FS × Option Errno
  | [] =>
    match stat pr fs [] with
    | .ok (.dir _) => (fs, none)
    | .ok .file => (fs, some .notdir)
    | .error e => (fs, some e)
  | c :: up =>
    match stat pr fs (c :: up).reverse with
    | .ok (.dir _) => (fs, none)
    | .ok .file => (fs, some .notdir)
    | .error _ =>
      match mkdirAll pr fs mode up with
      | (fs1, some e) => (fs1, some e)
      | (fs1, none) =>
        match mkdir pr fs1 (c :: up).reverse mode with
        | .ok fs2 => (fs2, none)
        | .error e =>
          match stat pr fs1 (c :: up).reverse with
          | .ok (.dir _) => (fs1, none)
          | _ => (fs1, some e)

/-- The mode of the directory, 0640: not searchable (defaultSessionManager.go:72). -/
def mode0640 : Perm := ⟨true, true, false⟩

/-- "wwrsess" (defaultSessionManager.go:66) -/
def defaultName : Bytes := [119, 119, 114, 115, 101, 115, 115]

/-- defaultSessionManager.go:52-91 `NewDefaultSessionManager`: the file system afterwards and the directory of the manager.
`exe`: the directory of the program, which is taken to be known (line 58 panics otherwise). The empty string is `none`. -/
def newManager (pr : Proc) (fs : FS) (exe : Path) (path : Option Path) : Go (FS × Path) :=
  let dir := match path with
    | none => exe ++ [defaultName]
    | some p => p
  match stat pr fs dir with
  | .error .noent =>
    match mkdirAll pr fs mode0640 dir.reverse with
    | (fs', none) => .ok (fs', dir)
    | (_, some _) => .error (.panic "Couldn't create default session directory")
  | .error _ => .error (.panic "Unexpected error during default session directory creation")
  | .ok _ => .ok (fs, dir)

/-- defaultSessionManager.go:107, 32-41: whether the file of a session can be written; `name`: key and suffix, without a
slash (C46). -/
def save (pr : Proc) (fs : FS) (dir : Path) (name : Bytes) : Except Errno FS := openCreate pr fs (dir ++ [name])

/-- defaultSessionManager.go:120-128: whether the session is there. Only `noent` is taken for "not found". -/
def look (pr : Proc) (fs : FS) (dir : Path) (name : Bytes) : Except Errno Node := stat pr fs (dir ++ [name])

end Webwire.Dir
