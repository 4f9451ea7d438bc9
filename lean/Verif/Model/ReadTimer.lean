import Verif.Go

/-!
# The read deadline of a memchan socket

`/repo/transport/memchan/socket.go:164-240` and the server loop that calls it
(`/repo/handleConnection.go:62-86`). One socket, one reader; time is a natural number that other steps let
pass. Go's `time.Timer` is modelled after its documentation: a channel with room for one tick, `Reset` and
`Stop` set and clear the pending expiry. Whether they also clear a tick already in the channel depends on the
Go release: up to 1.22 (the repository is built with 1.11, `/repo/.travis.yml:5`) they do not, since 1.23
they do. This is the parameter `drains`.

Simplified: the hand-over between writer and reader through one channel used in both directions
(`Model/Memchan.lean`) is reduced to a slot holding at most one message or the closing `nil`, stamped with
the time it arrived. What a message contains is not modelled. `readLock` is held for the whole of `Read`
(`socket.go:211`, `:240`), so there is at most one `Read` in progress.
-/

set_option autoImplicit false

namespace Webwire.ReadTimer

/-- What the reader's channel can hold: `[]byte` or `nil` (`socket.go:188-197`). -/
inductive Item
  | data
  | nil
  deriving DecidableEq, Repr

/-- How a `Read` ended. socket.go:206-251. -/
inductive Outcome
  /-- a message was received (`socket.go:196`) -/
  | message
  /-- `ErrSockRead{closed: true}` (`socket.go:194`, `:216`) -/
  | closed
  /-- `ErrSockRead{err: "read deadline exceeded"}` (`socket.go:189`) -/
  | deadline
  deriving DecidableEq, Repr

/-- One finished `Read`: the deadline it was given (`none`: the zero time), when and how it ended, and when the item
it received had arrived (`none` if it received none). Not in the code: a record of calls of socket.go:206 `Read`. -/
structure Done where
  limit : Option Nat
  ended : Nat
  how : Outcome
  arrived : Option Nat
  deriving DecidableEq, Repr

/-- The socket as its reader sees it. socket.go:35-65. -/
structure Sock where
  /-- the clock -/
  now : Nat := 0
  /-- the pending expiry of `readTimer`; `newSocket.go:11-13` leaves it inactive -/
  armed : Option Nat := none
  /-- a tick in `readTimer.C`; `newSocket.go:13` has drained the first -/
  tick : Bool := false
  /-- the reader's channel (capacity 1, `newSocket.go:20`) and when the item arrived -/
  slot : Option (Item × Nat) := none
  /-- the deadline of the `Read` in progress -/
  reading : Option (Option Nat) := none
  /-- `Close` was called -/
  closed : Bool := false
  /-- finished reads, latest first -/
  log : List Done := []
  deriving DecidableEq, Repr

/-- The steps. socket.go:183-203, 206-251. -/
inductive Label
  /-- time passes -/
  | pass
  /-- the run-time lets the timer expire -/
  | expire
  /-- the other side sends a message or closes -/
  | arrive (i : Item)
  /-- `Read` is called with this deadline -/
  | read (limit : Option Nat)
  /-- `case result := <-sock.getReader()` -/
  | take
  /-- `case <-sock.readTimer.C` -/
  | timeout
  deriving DecidableEq, Repr

/-- `Reset` (`socket.go:183`): sets the expiry; whether a tick in the channel is removed depends on the Go
release. -/
def Sock.reset (drains : Bool) (s : Sock) (at_ : Nat) : Sock :=
  { s with armed := some at_, tick := if drains then false else s.tick }

/-- `Stop` (`socket.go:200`); its result is ignored and the channel is not drained by the caller. -/
def Sock.stop (drains : Bool) (s : Sock) : Sock :=
  { s with armed := none, tick := if drains then false else s.tick }

/-- The end of a `Read` (`socket.go:198-203` and `:228-232`): the timer is stopped if it was used, an error
closes the socket. -/
def Sock.finish (drains : Bool) (s : Sock) (limit : Option Nat) (how : Outcome) (arrived : Option Nat) : Sock :=
  let s := if limit.isSome then s.stop drains else s
  { s with
    reading := none
    closed := s.closed || decide (how ≠ .message)
    log := ⟨limit, s.now, how, arrived⟩ :: s.log }

/-- One step. `none`: the step is not possible here. A deadline that has passed already makes `Reset` expire at once,
which is what an expiry not later than `now` means. socket.go:183-203, 206-251. -/
def Sock.step (drains : Bool) (s : Sock) : Label → Option Sock
  | .pass => some { s with now := s.now + 1 }
  | .expire =>
    match s.armed with
    | some t => if t ≤ s.now then some { s with armed := none, tick := true } else none
    | none => none
  | .arrive i =>
    match s.slot with
    | none => some { s with slot := some (i, s.now) }
    | some _ => none
  | .read limit =>
    match s.reading with
    | some _ => none
    | none =>
      -- socket.go:213-217
      if s.closed then some { s with log := ⟨limit, s.now, .closed, none⟩ :: s.log }
      else
        match limit with
        | none => some { s with reading := some none }
        | some d => some { s.reset drains d with reading := some (some d) }
  | .take =>
    match s.reading, s.slot with
    | some limit, some (.data, t) => some ({ s with slot := none }.finish drains limit .message (some t))
    | some limit, some (.nil, t) => some ({ s with slot := none }.finish drains limit .closed (some t))
    | _, _ => none
  | .timeout =>
    match s.reading with
    | some (some d) =>
      if s.tick then some ({ s with tick := false }.finish drains (some d) .deadline none) else none
    | _ => none

/-- A run of steps from a socket, each allowed by `ok`. Calls of socket.go:206 `Read`, one after the other. -/
def Sock.run (drains : Bool) (ok : Sock → Label → Bool) : Sock → List Label → Option Sock
  | s, [] => some s
  | s, l :: ls => if ok s l then (s.step drains l).bind fun s' => Sock.run drains ok s' ls else none

/-- Every interleaving is allowed. Of the steps of socket.go:206-251. -/
def any : Sock → Label → Bool := fun _ _ => true

end Webwire.ReadTimer
