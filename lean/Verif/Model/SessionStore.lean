import Verif.Go

/-!
# The file session manager

Models defaultSessionManager.go: any number of goroutines creating, looking up and closing sessions, one step per
system call, and crashes of the process at any time. Modelled of the file system:
names, inodes (a file that is open can lose its name), truncation, and writes at an offset in any portions.

Not modelled: symbolic links, full disks, and reads that overlap with writes (`ReadFile` takes one step). The
permissions of the directory are the subject of Verif.Model.SessionDir. Encoding and decoding of JSON are parameters. Times are numbers.
-/

set_option autoImplicit false

namespace Webwire.Store

/-! ## Paths -/

/-- Split at every slash. Part of defaultSessionManager.go:95. -/
def split : Bytes → List Bytes
  | [] => [[]]
  | c :: cs =>
    if c = 47 then [] :: split cs
    else
      match split cs with
      | [] => [[c]]
      | h :: t => (c :: h) :: t

/-- A clean path, kept as its elements, as the operating system resolves it. defaultSessionManager.go:94-96. -/
structure Path where
  rooted : Bool
  comps : List Bytes
  deriving DecidableEq

/-- The effect of one more path element (path/filepath `Clean`, rules 2-4). Part of defaultSessionManager.go:95. -/
def addComp (rooted : Bool) (acc : List Bytes) (c : Bytes) : List Bytes :=
  if c = [] ∨ c = [46] then acc
  else if c = [46, 46] then
    match acc.getLast? with
    | none => if rooted then acc else acc ++ [c]
    | some l => if l = [46, 46] then acc ++ [c] else acc.dropLast
  else acc ++ [c]

/-- path/filepath `Clean` on Unix. The code scans the string; here it is split at the slashes first. Part of
defaultSessionManager.go:95. -/
def clean (p : Bytes) : Path :=
  let rooted := p.head? == some 47
  ⟨rooted, (split p).foldl (addComp rooted) []⟩

/-- ".wwrsess". defaultSessionManager.go:95. -/
def suffix : Bytes := [46, 119, 119, 114, 115, 101, 115, 115]

/-- defaultSessionManager.go:94-96 `filePath`: path/filepath `Join` skips empty elements and cleans. -/
def filePath (dir key : Bytes) : Path :=
  if dir = [] then clean (key ++ suffix) else clean (dir ++ 47 :: (key ++ suffix))

/-! ## The manager -/

variable {I : Type}

/-- defaultSessionManager.go:13-17 `sessionFile`; `I` is the type of the info map. -/
structure SessionFile (I : Type) where
  creation : Nat
  lastLookup : Nat
  info : I
  deriving DecidableEq

/-- The surroundings. Used by defaultSessionManager.go:20-41, 120, 162. -/
structure Env (I : Type) where
  /-- defaultSessionManager.go:46 `path` -/
  dir : Bytes
  /-- json.Marshal -/
  marshal : SessionFile I → Option Bytes
  /-- json.Unmarshal -/
  unmarshal : Bytes → Option (SessionFile I)
  /-- whether the path can name a file: its directory exists and is accessible, the name is valid and no directory -/
  usable : Path → Bool
  /-- whether `Stat` of an unusable path says that it does not exist -/
  missing : Path → Bool

/-- The path of a session. defaultSessionManager.go:94-96. -/
def Env.path (env : Env I) (key : Bytes) : Path := filePath env.dir key

/-- sessionLookupResult.go: result of `OnSessionLookup`. -/
inductive Look (I : Type)
  | notFound
  | failed
  | found (f : SessionFile I)
  deriving DecidableEq

/-- What happened, in order. Not in the code: a record of calls of defaultSessionManager.go:100, 113, 161. -/
inductive Ev (I : Type)
  | createStart (key : Bytes)
  | createEnd (key : Bytes) (f : SessionFile I) (ok : Bool)
  | lookEnd (key : Bytes) (now : Nat) (res : Look I)
  | closeEnd (key : Bytes) (ok : Bool)

/-- The file system, and what happened. Used by defaultSessionManager.go:21, 37, 120, 162. -/
structure G (I : Type) where
  names : Path → Option Nat := fun _ => none
  inodes : Nat → Bytes := fun _ => []
  next : Nat := 0
  log : List (Ev I) := []

/-- Why a file is saved. defaultSessionManager.go:107, 145. -/
inductive After (I : Type)
  | created
  | looked (old : SessionFile I) (now : Nat)
  deriving DecidableEq

/-- Where a goroutine is. defaultSessionManager.go:20-41, 100-169. -/
inductive PC (I : Type)
  /-- defaultSessionManager.go:33-37, up to and including the opening of the file -/
  | saving (key : Bytes) (f : SessionFile I) (after : After I)
  /-- inside `WriteFile`, with the file open -/
  | writing (key : Bytes) (f : SessionFile I) (ino : Nat) (data : Bytes) (off : Nat) (after : After I)
  /-- defaultSessionManager.go:120 -/
  | statting (key : Bytes) (now : Nat)
  /-- defaultSessionManager.go:132 -/
  | reading (key : Bytes) (now : Nat)
  /-- defaultSessionManager.go:162 -/
  | removing (key : Bytes)

/-- Record an event. Not in the code; where it happens is cited with `act`, defaultSessionManager.go:100-169. -/
def G.ev (g : G I) (e : Ev I) : G I := { g with log := g.log ++ [e] }

/-- Write at an offset; a gap is filled with zeroes. Part of defaultSessionManager.go:37. -/
def overwrite (c : Bytes) (off : Nat) (bs : Bytes) : Bytes :=
  (c ++ List.replicate (off - c.length) 0).take off ++ bs ++ c.drop (off + bs.length)

/-- os.OpenFile with O_WRONLY|O_CREATE|O_TRUNC (ioutil.WriteFile, defaultSessionManager.go:37). -/
def G.openTrunc (g : G I) (p : Path) : G I × Nat :=
  match g.names p with
  | some i => ({ g with inodes := fun j => if j = i then [] else g.inodes j }, i)
  | none => ({ g with
      names := fun q => if q = p then some g.next else g.names q,
      inodes := fun j => if j = g.next then [] else g.inodes j,
      next := g.next + 1 }, g.next)

/-- `Save` has returned (defaultSessionManager.go:107, 145-156). -/
def finish (key : Bytes) (f : SessionFile I) (ok : Bool) : After I → Ev I
  | .created => .createEnd key f ok
  | .looked old now => .lookEnd key now (if ok then .found old else .failed)

/-- One step of a goroutine; `n`: how many bytes are written at once, less one. defaultSessionManager.go:20-41,
100-169; the lines are with the cases. -/
def act (env : Env I) (g : G I) (n : Nat) : PC I → Option (G I × List (PC I))
  -- defaultSessionManager.go:32-41
  | .saving key f after =>
    match env.marshal f with
    | none => some (g.ev (finish key f false after), [])
    | some data =>
      if env.usable (env.path key) then
        let (g', i) := g.openTrunc (env.path key)
        some (g', [.writing key f i data 0 after])
      else some (g.ev (finish key f false after), [])
  | .writing key f i data off after =>
    if data.length ≤ off then some (g.ev (finish key f true after), [])
    else
      some ({ g with
        inodes := fun j => if j = i then overwrite (g.inodes i) off ((data.drop off).take (n + 1)) else g.inodes j },
        [.writing key f i data (off + (n + 1)) after])
  -- defaultSessionManager.go:117-128
  | .statting key now =>
    if env.usable (env.path key) then
      match g.names (env.path key) with
      | none => some (g.ev (.lookEnd key now .notFound), [])
      | some _ => some (g, [.reading key now])
    else if env.missing (env.path key) then some (g.ev (.lookEnd key now .notFound), [])
    else some (g.ev (.lookEnd key now .failed), [])
  -- defaultSessionManager.go:130-150
  | .reading key now =>
    match g.names (env.path key) with
    | none => some (g.ev (.lookEnd key now .failed), [])
    | some i =>
      match env.unmarshal (g.inodes i) with
      | none => some (g.ev (.lookEnd key now .failed), [])
      | some f => some (g, [.saving key { f with lastLookup := now } (.looked f now)])
  -- defaultSessionManager.go:161-169
  | .removing key =>
    if env.usable (env.path key) then
      match g.names (env.path key) with
      | none => some (g.ev (.closeEnd key false), [])
      | some _ =>
        some (({ g with names := fun q => if q = env.path key then none else g.names q } : G I).ev
          (.closeEnd key true), [])
    else some (g.ev (.closeEnd key false), [])

/-- The file system and the goroutines using it. Goroutines of the server, which call defaultSessionManager.go:100,
113, 161. -/
structure State (I : Type) where
  g : G I := {}
  threads : List (PC I) := []

/-- Who makes a step: a goroutine goes on, or calls `OnSessionCreated` (whose times and info are those of the session,
defaultSessionManager.go:101-106), `OnSessionLookup` at time `now`, or `OnSessionClosed`; or the process crashes
(and is started again). -/
inductive Label (I : Type)
  | thread (pc : PC I) (n : Nat)
  | create (key : Bytes) (f : SessionFile I)
  | look (key : Bytes) (now : Nat)
  | close (key : Bytes)
  | crash

/-- One step. Interleaving of goroutines that call defaultSessionManager.go:100, 113, 161. -/
inductive Step (env : Env I) : State I → Label I → State I → Prop
  | thread (g g' : G I) (pre post pcs : List (PC I)) (pc : PC I) (n : Nat) : act env g n pc = some (g', pcs) →
      Step env ⟨g, pre ++ pc :: post⟩ (.thread pc n) ⟨g', pre ++ (pcs ++ post)⟩
  | create (g : G I) (ts : List (PC I)) (key : Bytes) (f : SessionFile I) :
      Step env ⟨g, ts⟩ (.create key f) ⟨g.ev (.createStart key), .saving key f .created :: ts⟩
  | look (g : G I) (ts : List (PC I)) (key : Bytes) (now : Nat) :
      Step env ⟨g, ts⟩ (.look key now) ⟨g, .statting key now :: ts⟩
  | close (g : G I) (ts : List (PC I)) (key : Bytes) : Step env ⟨g, ts⟩ (.close key) ⟨g, .removing key :: ts⟩
  | crash (g : G I) (ts : List (PC I)) : Step env ⟨g, ts⟩ .crash ⟨g, []⟩

/-- The states after any finite execution, from an empty directory, in which every step satisfies `ok`. The directory
is made at defaultSessionManager.go:72. -/
inductive ReachableIf (env : Env I) (ok : State I → Label I → Prop) : State I → Prop
  | start : ReachableIf env ok {}
  | step (s : State I) (l : Label I) (s' : State I) : ReachableIf env ok s → ok s l → Step env s l s' →
      ReachableIf env ok s'

/-- The states after any finite execution. The directory is made at defaultSessionManager.go:72. -/
def Reachable (env : Env I) : State I → Prop := ReachableIf env fun _ _ => True

end Webwire.Store
