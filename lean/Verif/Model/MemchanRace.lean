import Verif.Model.Memchan

/-!
# The memchan transport: which variables goroutines access

Adds to `Model/Memchan` which plain variables each step accesses. Atomics (`status`) and channels may be used by several
goroutines at once. Fields that are set before sockets are handed out and never changed (`server`, `remote`, `sockType`, the
locks, newSocket.go:10-37, entangleSockets.go:13-24, transport.go:35-56) are left out.
-/

set_option autoImplicit false

namespace Webwire.Mem

/-- Variables that are neither atomics nor channels. The fields are with the cases: buffer.go:11-12, socket.go:48, 62,
transport.go:28. -/
inductive Loc
  /-- the bytes of the outbound buffer (buffer.go:11) -/
  | arr (p : Nat) (x : Side)
  /-- its length (buffer.go:12) -/
  | len (p : Nat) (x : Side)
  /-- the field `reader` of the socket: which channel it is (socket.go:62) -/
  | reader (p : Nat) (x : Side)
  /-- the field `readTimer` (socket.go:48): `Reset` and `Stop` of one timer must not be called at once -/
  | timer (p : Nat) (x : Side)
  /-- the connections of the transport (transport.go:28) -/
  | conns
  deriving DecidableEq

/-- Locks that are taken and released (or kept) by the very step that accesses the variable. buffer.go:15,
socket.go:64, transport.go:29. -/
inductive Lock
  | buf (p : Nat) (x : Side)
  | reader (p : Nat) (x : Side)
  | conns
  deriving DecidableEq

/-- An access: the variable, whether it is written, and the lock the step takes for it. In socket.go, buffer.go,
transport.go; the lines are with `PC.accs`. -/
structure Acc where
  loc : Loc
  write : Bool
  lock : Option Lock := none

/-- The accesses of a goroutine's next step. socket.go, buffer.go, transport.go; the lines are with the cases. -/
def PC.accs : PC → List Acc
  -- buffer.go:41-50: `Write`
  | .w3 p x _ (_ :: _) => [⟨.len p x, true, some (.buf p x)⟩, ⟨.arr p x, true, some (.buf p x)⟩]
  -- buffer.go:56-60: `Close`
  | .w4 p x _ => [⟨.len p x, false, some (.buf p x)⟩]
  -- buffer.go:60, socket.go:146: under the buffer's lock and the lock of the other side's reader
  | .w7 p x _ => [⟨.len p x, false, none⟩, ⟨.reader p x.other, false, none⟩]
  -- buffer.go:61, under the buffer's lock
  | .w10 p x _ _ => [⟨.len p x, true, none⟩]
  -- socket.go:137-142
  | .r3 p x _ => [⟨.reader p x, false, some (.reader p x)⟩]
  -- socket.go:183, 200, under `readLock`
  | .r4 p x true _ => [⟨.timer p x, true, none⟩]
  -- socket.go:236: the bytes are those of the other side's buffer (socket.go:78)
  | .r5 p x _ => [⟨.arr p x.other, false, none⟩]
  -- socket.go:151-155
  | .c2 p x _ => [⟨.reader p x.other, false, some (.reader p x.other)⟩]
  | .c5 p x _ => [⟨.reader p x, false, some (.reader p x)⟩]
  -- transport.go:129-133
  | .c6 _ _ _ => [⟨.conns, true, some .conns⟩]
  -- socket.go:158-162
  | .d3 p => [⟨.reader p .clt, true, some (.reader p .clt)⟩]
  | .d4 p => [⟨.reader p .srv, true, some (.reader p .srv)⟩]
  -- transport.go:116-118
  | .d7 _ => [⟨.conns, true, some .conns⟩]
  -- transport.go:71-78
  | .s2 => [⟨.conns, false, some .conns⟩]
  | _ => []

end Webwire.Mem
