import Verif.Go

/-!
# Error values

Models `errors.go` and `translateContextError.go`: the error types, their `Error` methods, and the functions that tell them
apart.
-/

set_option autoImplicit false

namespace Webwire.Errors

/-- A value of type `error`. errors.go:8-160. -/
inductive GoErr
  /-- the nil interface value -/
  | nil
  /-- `context.DeadlineExceeded`, `context.Canceled` -/
  | ctxDeadline
  | ctxCanceled
  /-- a value of any other type; what its `Error` method does -/
  | other (error : Go String)
  /-- errors.go:8 -/
  | bufferOverflow
  /-- errors.go:17 -/
  | deadlineExceeded (cause : GoErr)
  /-- errors.go:27 -/
  | disconnected (cause : GoErr)
  /-- errors.go:40 -/
  | dialTimeout
  /-- errors.go:50 -/
  | incompatible (required supported : String)
  /-- errors.go:65 -/
  | internal
  /-- errors.go:74 -/
  | maxSessConnsReached
  /-- errors.go:82 -/
  | protocol (cause : GoErr)
  /-- errors.go:99 -/
  | request (code message : String)
  /-- errors.go:111 -/
  | serverShutdown
  /-- errors.go:120 -/
  | sessionNotFound
  /-- errors.go:129 -/
  | sessionsDisabled
  /-- errors.go:137 -/
  | timeout (cause : GoErr)
  /-- errors.go:148 -/
  | transmission (cause : GoErr)
  /-- errors.go:158 -/
  | canceled (cause : GoErr)
  /-- a pointer to a value of one of these types, `nil` if it is a nil pointer -/
  | pointer (to : GoErr)

/-- `fmt.Sprintf("%s", err)`, given what `err.Error()` does: package fmt recovers from panics (and looks for nil
before) and prints a text instead (simplified: a fixed one). errors.go:154, translateContextError.go:15. -/
def sprintf : Go String → Go String
  | .error (.panic _) => .ok "%!s(PANIC)"
  | r => r

/-- `err.Error()`. errors.go:11-165, the lines are with the cases. -/
def text : GoErr → Go String
  | .nil => goPanic "nil pointer dereference"
  | .ctxDeadline => .ok "context deadline exceeded"
  | .ctxCanceled => .ok "context canceled"
  | .other e => e
  -- errors.go:11-13
  | .bufferOverflow => .ok "message buffer overflow"
  -- errors.go:22-24
  | .deadlineExceeded c => text c
  -- errors.go:32-37
  | .disconnected .nil => .ok "disconnected"
  | .disconnected c => text c
  -- errors.go:43-45
  | .dialTimeout => .ok "dial timed out"
  -- errors.go:56-62
  | .incompatible r s => .ok ("unsupported protocol version: " ++ r ++ " (supported: " ++ s ++ ")")
  -- errors.go:68-70
  | .internal => .ok "internal server error"
  -- errors.go:77-79
  | .maxSessConnsReached => .ok "reached maximum number of concurrent session connections"
  -- errors.go:94-96
  | .protocol c => text c
  -- errors.go:105-107
  | .request _ m => .ok m
  -- errors.go:114-116
  | .serverShutdown => .ok "server is currently being shut down and won't process the request"
  -- errors.go:123-125
  | .sessionNotFound => .ok "session not found"
  -- errors.go:132-134
  | .sessionsDisabled => .ok "sessions are disabled for this server"
  -- errors.go:142-144
  | .timeout c => text c
  -- errors.go:153-155
  | .transmission c => do return "message transmission failed: " ++ (← sprintf (text c))
  -- errors.go:163-165
  | .canceled c => text c
  -- methods with value receivers of pointers
  | .pointer e => text e

/-- errors.go:169-177 `IsErrTimeout`. -/
def isErrTimeout : GoErr → Bool
  | .timeout _ => true
  | .deadlineExceeded _ => true
  | _ => false

/-- errors.go:181-187 `IsErrCanceled`. -/
def isErrCanceled : GoErr → Bool
  | .canceled _ => true
  | _ => false

/-- translateContextError.go:9-16 `TranslateContextError`. -/
def translateContextError : GoErr → GoErr
  | .ctxDeadline => .deadlineExceeded .ctxDeadline
  | .ctxCanceled => .canceled .ctxCanceled
  | .nil => .other (.ok "unexpected context error: %!s(<nil>)")
  | e => .other do return "unexpected context error: " ++ (← sprintf (text e))

/-- The errors with a cause that the code of this repository makes: translateContextError.go:11, 13, connection.go:163, 193,
transport/memchan/socket.go:94, 127. Those without a cause are at connection.go:169, 189, 280, failMsg.go and
handleSession*.go, transport/memchan/buffer.go:46. -/
inductive Own : GoErr → Prop
  | bufferOverflow : Own .bufferOverflow
  | sessionsDisabled : Own .sessionsDisabled
  | sessionNotFound : Own .sessionNotFound
  | maxSessConnsReached : Own .maxSessConnsReached
  /-- connection.go:163; errors.New -/
  | protocol (s : String) : Own (.protocol (.other (.ok s)))
  /-- connection.go:193, transport/memchan/socket.go:94, 127; fmt.Errorf -/
  | disconnected (s : String) : Own (.disconnected (.other (.ok s)))
  /-- requestManager/request.go:42, of whatever `ctx.Err()` returned, unless its `Error` method never returns -/
  | context (e : GoErr) : (∀ why, text e ≠ .error (.deadlock why)) → Own (translateContextError e)

end Webwire.Errors
