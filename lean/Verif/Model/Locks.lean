import Verif.Go

/-!
# Locks, shared memory and hooks

Models which locks every function of the server takes, in which order, which shared variables it touches and which hooks it
calls meanwhile; hooks call back into the API. The request manager's functions are modelled, too. Any number of goroutines, connections and calls, in any interleaving.

Simplifications: which way a function takes is chosen by the environment, among the ways its code has, without regard to the
data that would decide (so there are more executions than the code has; the examples say which data they need). Waiting for
handler slots and for the end of a shutdown is the subject of `Model/Lifecycle`, so `Shutdown` here is its critical section
only. A socket's writer is a lock (`GetWriter` to `Close`) that every `message.WriteMsg*` gives back (C11), having waited for
the client to read the message (memchan/socket.go:71-85) or for the end of the socket; sockets themselves take no other locks. Hooks return or panic; a panic that no user code recovers from ends the process and is left out here
(C41), the others end the functions of the server they pass through, none of which unlocks anything in a deferred call.

The variables are those that are written after the object they belong to was handed to another goroutine. Fields that are
set once (connection.go:54-84, newServer.go:56-76 and all of `Session`), atomic variables (`lastID`, the transport's), the
objects of user code and the buffers handed over between the sockets (C52) are left out. What a critical section does to one
variable is one access, and a write if the section may write.
-/

set_option autoImplicit false

namespace Webwire.Locks

/-- The locks of the server. server.go:26-27, connection.go:28, 44, sessionRegistry.go:12. -/
inductive Lock
  /-- connection.go:44 `sessionLock` -/
  | sess (c : Nat)
  /-- sessionRegistry.go:12 `lock` -/
  | reg
  /-- connection.go:28 `stateLock` -/
  | state (c : Nat)
  /-- server.go:26 `opsLock` -/
  | ops
  /-- server.go:27 `connectionsLock` -/
  | conns
  /-- the writer of the connection's socket -/
  | writer (c : Nat)
  /-- requestManager.go:14 `lock` -/
  | pending
  deriving DecidableEq, Repr

/-- Shared variables. The fields are cited with the cases: connection.go:29-47, server.go:23-28. -/
inductive Loc
  /-- connection.go:47 `session` -/
  | session (c : Nat)
  /-- connection.go:29, 32 `isActive`, `tasks` -/
  | state (c : Nat)
  /-- sessionRegistry.go:14 `registry`, the map and its sets -/
  | registry
  /-- server.go:23, 25 `shutdown`, `currentOps` -/
  | ops
  /-- server.go:28 `connections` -/
  | conns
  /-- requestManager.go:17 `pending` -/
  | pending
  deriving DecidableEq, Repr

/-- Where in the code: three places have names. sessionRegistry.go, connection.go: the reads of `session` without its
lock. -/
inductive Site
  /-- sessionRegistry.go:36-60 -/
  | register
  /-- sessionRegistry.go:69-112 -/
  | deregister
  /-- connection.go:205-208, the error of `CreateSession` that mentions the session there is -/
  | refusal
  | other
  deriving DecidableEq, Repr

/-- An access to a shared variable. To one of the fields above, connection.go:29-47, server.go:23-28. -/
structure Acc where
  loc : Loc
  write : Bool
  site : Site := .other
  deriving DecidableEq, Repr

/-- Reads. The lines are cited where it is used, sessionRegistry.go:38 for one. -/
def rd (x : Loc) (s : Site := .other) : Acc := ⟨x, false, s⟩

/-- Writes. The lines are cited where it is used, sessionRegistry.go:49-57 for one. -/
def wr (x : Loc) (s : Site := .other) : Acc := ⟨x, true, s⟩

/-- User code called by the server: interfaces.go. `info` stands for the methods of `SessionInfo` and for
`SessionInfoParser`. -/
inductive Hook
  | onClientConnected | onClientDisconnected | onRequest | onSignal
  | onSessionCreated | onSessionLookup | onSessionClosed | generate | info
  deriving DecidableEq, Repr

/-- The functions: the API (interfaces.go:118-179 and the server's), and the goroutines of the server. -/
inductive Fn
  | isActive (c : Nat) | signal (c : Nat) | createSession (c : Nat) | closeSession (c : Nat)
  /-- `HasSession`, `SessionKey`, `SessionCreation` -/
  | getter (c : Nat)
  /-- `Session`, `SessionInfo` -/
  | infoGetter (c : Nat)
  | close (c : Nat)
  | srvCloseSession
  /-- `ActiveSessionsNum`, `SessionConnectionsNum`, `SessionConnections` -/
  | registryGetter
  | shutdown
  /-- what the transport asks when clients dial, isShuttingDown.go:5-13 -/
  | isShuttingDown
  /-- `RequestManager.Create` -/
  | rmCreate
  /-- `Request.AwaitReply`, from the end of its waiting -/
  | rmAwait
  /-- `RequestManager.Fulfill`, `Fail` -/
  | rmResolve
  /-- `PendingRequests`, `IsPending` -/
  | rmGetter
  /-- handleConnection -/
  | serve (c : Nat)
  /-- `handleRequest` or `handleSignal` in a goroutine of their own -/
  | handler (c : Nat)
  deriving DecidableEq, Repr

/-- Available to user code. interfaces.go:11-52, 118-179; handleConnection.go:35 and handleMessage.go:33, 43 start the
others. -/
def Fn.api : Fn → Bool
  | .serve _ | .handler _ => false
  | _ => true

/-- What a goroutine does next. The operations of the functions below, connection.go:351-368 for one. -/
inductive Op
  /-- `Lock`, or `RLock` if not `w` -/
  | lock (l : Lock) (w : Bool)
  /-- `Unlock`, `RUnlock` -/
  | unlock (l : Lock)
  | acc (a : Acc)
  /-- wait for the client of this connection to read -/
  | await (c : Nat)
  | hook (h : Hook)
  | call (f : Fn)
  /-- the end of a function called by user code -/
  | ret
  /-- user code panics -/
  | panic
  deriving DecidableEq, Repr

/-- The ways through a piece of code. Not in the code; used for the functions below, connection.go:121-139 for one. -/
abbrev Ways := List Op → Prop

/-- Nothing but these operations. Not in the code; see `unlink` (connection.go:129-139) for its use. -/
def just (w : List Op) : Ways := fun x => x = w

/-- One after the other. Not in the code; see `unlink` (connection.go:129-139) for its use. -/
def seq (a b : Ways) : Ways := fun x => ∃ u v, a u ∧ b v ∧ x = u ++ v

/-- One or the other. Not in the code; see `close` (connection.go:351-368) for its use. -/
def alt (a b : Ways) : Ways := fun x => a x ∨ b x

/-- Any number of times. Loops: handleConnection.go:62, server.go:103. -/
inductive many (a : Ways) : Ways
  | none : many a []
  | more (u v : List Op) : a u → many a v → many a (u ++ v)

infixr:60 " ⬝ " => seq
infixr:55 " ⊕ " => alt

/-- Between lock and unlock. See connection.go:121-125 for an example. -/
def locked (l : Lock) (w : Bool) (a : Ways) : Ways := just [.lock l w] ⬝ a ⬝ just [.unlock l]

/-- Nothing. Functions that return at once: connection.go:188-198 for one. -/
def nop : Ways := just []

/-- These accesses. Not in the code; see `setSession` (connection.go:121-125) for its use. -/
def touch (as : List Acc) : Ways := just (as.map .acc)

/-- A critical section with these accesses and without locks or hooks inside. See connection.go:121-125 for an
example. -/
def section_ (l : Lock) (w : Bool) (as : List Acc) : Ways := locked l w (touch as)

/-- `sock.GetWriter`, then a `message.WriteMsg*` which closes the writer; or there is no writer (failMsg.go:19-27,
fulfillMsg.go:11-32, connection.go:172-183, 258-265, 270-274). Also `sock.Close`. -/
def send (c : Nat) : Ways := nop ⊕ locked (.writer c) true (nop ⊕ just [.await c])

/-- sessionRegistry.go:36-60 `register`. -/
def register (c : Nat) : Ways := section_ .reg true [rd (.session c) .register, wr .registry]

/-- sessionRegistry.go:69-112 `deregister`: no session (73); removed (77-83, 100-111); destroyed (85-98). -/
def deregister (c : Nat) (destroy : Bool) : Ways :=
  let removed := section_ .reg true [rd (.session c) .deregister, wr .registry]
  touch [rd (.session c) .deregister] ⬝
    (nop ⊕ removed ⊕
      (if destroy then removed ⬝ touch [rd (.session c) .deregister] ⬝ just [.hook .onSessionClosed] else removed))

/-- connection.go:121-125 `setSession`. -/
def setSession (c : Nat) : Ways := section_ (.sess c) true [wr (.session c)]

/-- connection.go:129-139 `unlink`. -/
def unlink (c : Nat) : Ways := deregister c false ⬝ setSession c ⬝ send c

/-- connection.go:187-235 `CreateSession`: disabled or disconnected (188-198); another session (203-209); the notification
fails (212-221, 237-266); created (224-234). -/
def createSession (c : Nat) : Ways :=
  nop ⊕ (section_ (.sess c) true [rd (.session c)] ⬝ touch [rd (.session c) .refusal]) ⊕
  locked (.sess c) true (touch [rd (.session c)] ⬝ just [.hook .generate] ⬝ many (just [.hook .info]) ⬝ send c) ⊕
  (locked (.sess c) true (touch [rd (.session c)] ⬝ just [.hook .generate] ⬝ many (just [.hook .info]) ⬝ send c ⬝
      touch [wr (.session c)] ⬝ register c) ⬝
    just [.hook .onSessionCreated])

/-- connection.go:278-296 `CloseSession`: disabled (279-281); no session (284-287); closed (291-295). -/
def closeSession (c : Nat) : Ways :=
  nop ⊕ section_ (.sess c) true [rd (.session c)] ⊕
  (locked (.sess c) true (touch [rd (.session c)] ⬝ deregister c true ⬝ touch [wr (.session c)]) ⬝ send c)

/-- connection.go:351-368 `Close`. -/
def close (c : Nat) : Ways :=
  section_ (.state c) true [rd (.state c)] ⊕ (section_ (.state c) true [wr (.state c)] ⬝ (nop ⊕ unlink c))

/-- server.go:89-123 `CloseSession`: the connections listed, one by one. -/
def srvCloseSession : Ways := section_ .reg false [rd .registry] ⬝ many fun x => ∃ c, closeSession c x

/-- registerHandler.go:13-45: closed connection (19-21); refused in shutdown (28-41). -/
def notRegistered (c : Nat) : Ways :=
  section_ (.state c) false [rd (.state c)] ⊕
  (section_ (.state c) false [rd (.state c)] ⬝ section_ .ops true [rd .ops] ⬝ send c)

/-- registerHandler.go:13-45, connection.go:96-100. -/
def registered (c : Nat) : Ways :=
  section_ (.state c) false [rd (.state c)] ⬝ section_ .ops true [wr .ops] ⬝ section_ (.state c) true [wr (.state c)]

/-- deregisterHandler.go:5-19, connection.go:105-118. -/
def deregisterHandler (c : Nat) : Ways :=
  section_ .ops true [wr .ops] ⬝ section_ (.state c) true [wr (.state c)] ⬝ (nop ⊕ unlink c)

/-- handleRequest.go:11-39, handleSignal.go:11-18. -/
def handler (c : Nat) : Ways :=
  (just [.hook .onRequest] ⬝ send c ⬝ deregisterHandler c) ⊕ (just [.hook .onSignal] ⬝ deregisterHandler c)

/-- handleSessionRestore.go:12-107: answered before the lookup (23-36) or after it (39-78), or restored. -/
def handleSessionRestore (c : Nat) : Ways :=
  let looked := section_ .reg false [rd .registry]
  (send c ⊕ (looked ⬝ send c) ⊕
    (looked ⬝ just [.hook .onSessionLookup] ⬝ send c) ⊕
    (looked ⬝ just [.hook .onSessionLookup] ⬝ many (just [.hook .info]) ⬝ setSession c ⬝ register c ⬝ send c)) ⬝
  deregisterHandler c

/-- handleSessionClosure.go:9-43. -/
def handleSessionClosure (c : Nat) : Ways :=
  (send c ⊕ (section_ (.sess c) false [rd (.session c)] ⬝ send c) ⊕
    (section_ (.sess c) false [rd (.session c)] ⬝ deregister c true ⬝ setSession c ⬝ send c)) ⬝ deregisterHandler c

/-- handleMessage.go:6-62 in the reader: heartbeats and messages it does not handle itself, or handles there. A handler in
its own goroutine is `Fn.handler`. -/
def handleMessage (c : Nat) : Ways :=
  nop ⊕ notRegistered c ⊕
  (registered c ⬝ (nop ⊕ handler c ⊕ handleSessionRestore c ⊕ handleSessionClosure c ⊕ deregisterHandler c))

/-- handleConnection.go:35-87. -/
def serve (c : Nat) : Ways :=
  send c ⊕
  (send c ⬝ section_ .conns true [wr .conns] ⬝ just [.hook .onClientConnected] ⬝ many (handleMessage c) ⬝ close c ⬝
    just [.hook .onClientDisconnected])

/-- The ways through a function. The lines are with the cases and functions, connection.go:87-93 first. -/
def Fn.ways : Fn → Ways
  | .isActive c => section_ (.state c) false [rd (.state c)]                -- connection.go:87-93
  | .signal c => send c                                                     -- connection.go:160-184
  | .createSession c => Locks.createSession c
  | .closeSession c => Locks.closeSession c
  | .getter c => section_ (.sess c) false [rd (.session c)]                 -- connection.go:299-304, 315-336
  | .infoGetter c => locked (.sess c) false (touch [rd (.session c)] ⬝ many (just [.hook .info])) -- connection.go:307-312, 339-348
  | .close c => Locks.close c
  | .srvCloseSession => Locks.srvCloseSession
  | .registryGetter => section_ .reg false [rd .registry]                   -- sessionRegistry.go:115-151
  | .shutdown => section_ .ops true [wr .ops]                               -- server.go:57-65
  | .isShuttingDown => section_ .ops true [rd .ops]                         -- isShuttingDown.go:5-13
  | .rmCreate => section_ .pending true [wr .pending]                       -- requestManager.go:32-51
  | .rmAwait => nop ⊕ section_ .pending true [wr .pending]                  -- request.go:37-50, requestManager.go:55-59
  | .rmResolve => section_ .pending false [rd .pending] ⬝ (nop ⊕ section_ .pending true [wr .pending]) -- requestManager.go:65-101
  | .rmGetter => section_ .pending false [rd .pending]                      -- requestManager.go:104-118
  | .serve c => Locks.serve c
  | .handler c => Locks.handler c

/-- A goroutine: the locks it holds, latest first, and what it has to do. Goroutines start at handleConnection.go:35,
handleMessage.go:33, 43 and in user code. -/
structure Thread where
  held : List (Lock × Bool) := []
  todo : List Op
  deriving DecidableEq, Repr

/-- The goroutines of the server and of user code (handleConnection.go:35, handleMessage.go:33, 43). -/
abbrev State := List Thread

/-- The goroutine is waiting for, or about to take, the lock for writing. For example connection.go:122. -/
def Thread.wantsWrite (t : Thread) (l : Lock) : Prop := t.todo.head? = some (.lock l true)

/-- `sync.RWMutex`: a writer waits for everybody, a reader for the writer and for writers that are waiting.
(`sync.Mutex` is used for writing only.) The locks of connection.go:28, 44 and sessionRegistry.go:12; `sync.Mutex`:
server.go:26-27. -/
def Free (s : State) (l : Lock) (w : Bool) : Prop :=
  if w then ∀ t ∈ s, ∀ b, (l, b) ∉ t.held
  else ∀ t ∈ s, (l, true) ∉ t.held ∧ ¬ t.wantsWrite l

/-- What a goroutine does, its choices included. Hooks are interfaces.go:57-113, 195-278. -/
inductive Label
  | lock | unlock
  | acc (a : Acc)
  | await (c : Nat)
  /-- a hook called while holding these locks makes these calls, and may panic in the end -/
  | hook (held : List (Lock × Bool)) (calls : List Fn) (panics : Bool)
  | call | ret | panic
  /-- a new goroutine -/
  | spawn

/-- One step of the goroutine in state `s`. What the functions do is cited with `Fn.ways`; recovering is up to user
code, except for sessionRegistry.go:87-96 (C41). -/
inductive Act (s : State) : Thread → Label → Thread → Prop
  | lock (held : List (Lock × Bool)) (l : Lock) (w : Bool) (r : List Op) : Free s l w →
      Act s ⟨held, .lock l w :: r⟩ .lock ⟨(l, w) :: held, r⟩
  | unlock (pre post : List (Lock × Bool)) (l : Lock) (w : Bool) (r : List Op) : (∀ b, (l, b) ∉ pre) →
      Act s ⟨pre ++ (l, w) :: post, .unlock l :: r⟩ .unlock ⟨pre ++ post, r⟩
  | acc (held : List (Lock × Bool)) (a : Acc) (r : List Op) : Act s ⟨held, .acc a :: r⟩ (.acc a) ⟨held, r⟩
  | await (held : List (Lock × Bool)) (c : Nat) (r : List Op) : Act s ⟨held, .await c :: r⟩ (.await c) ⟨held, r⟩
  /-- a panic needs user code further up that recovers from it -/
  | hook (held : List (Lock × Bool)) (h : Hook) (r : List Op) (calls : List Fn) (p : Bool) : (∀ f ∈ calls, f.api = true) →
      (p = true → .ret ∈ r) →
      Act s ⟨held, .hook h :: r⟩ (.hook held calls p) ⟨held, calls.map .call ++ ((if p then [.panic] else []) ++ r)⟩
  | call (held : List (Lock × Bool)) (f : Fn) (x r : List Op) : f.ways x →
      Act s ⟨held, .call f :: r⟩ .call ⟨held, x ++ ((if f.api then [.ret] else []) ++ r)⟩
  | ret (held : List (Lock × Bool)) (r : List Op) : Act s ⟨held, .ret :: r⟩ .ret ⟨held, r⟩
  /-- the functions of the server in between end where they are; user code that called one of them goes on -/
  | panic (held : List (Lock × Bool)) (a r : List Op) : Act s ⟨held, .panic :: (a ++ .ret :: r)⟩ .panic ⟨held, r⟩

/-- One step. New goroutines: handleConnection.go:35, handleMessage.go:33, 43, and those of user code. -/
inductive Step : State → Label → State → Prop
  | act (pre post : List Thread) (t t' : Thread) (l : Label) : Act (pre ++ t :: post) t l t' →
      Step (pre ++ t :: post) l (pre ++ t' :: post)
  | spawn (s : State) (f : Fn) : Step s .spawn (s ++ [⟨[], [.call f]⟩])

/-- The states after any finite execution from `s` in which every step satisfies `ok`. Executions of the functions
cited with `Fn.ways`, connection.go:87-93 first. -/
inductive Reach (ok : Label → Prop) (s : State) : State → Prop
  | start : Reach ok s s
  | step (u v : State) (l : Label) : Reach ok s u → ok l → Step u l v → Reach ok s v

end Webwire.Locks
