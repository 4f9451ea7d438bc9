import Verif.Model.Message

/-!
# Writing messages

Models `message/writeMsg*.go`, `message/calcMsgLen.go` and `message/newAcceptConfMessage.go`.

Each `WriteMsg*` returns the writer's state afterwards and the returned error.
A writer is Go's `io.WriteCloser` with its state made explicit. `Write` may fail, panic or block, and so
may `Close`. The byte count returned by `Write` is ignored by all of this code and is not modelled.
-/

set_option autoImplicit false

namespace Webwire

/-- `io.WriteCloser` over a state `σ`. socket.go:13-17: what `GetWriter` returns. -/
structure Writer (σ : Type) where
  write : σ → Bytes → Go (σ × Option Err)
  close : σ → Go (σ × Option Err)

/-- The recurring failure path, e.g. message/writeMsgRequest.go:26-29 and 83-86: close the writer, combine
the errors. -/
def closeWith {σ : Type} (w : Writer σ) (s : σ) (initialErr : Err) : Go (σ × Option Err) := do
  let (s, ce) ← w.close s
  match ce with
  | some c => return (s, some (initialErr ++ ": " ++ c))
  | none => return (s, some initialErr)

/-- The recurring write step, e.g. message/writeMsgRequest.go:82-87: write one part; on failure close the
writer and return, otherwise go on with `k`. -/
def writePart {σ : Type} (w : Writer σ) (s : σ) (part : Bytes) (k : σ → Go (σ × Option Err)) : Go (σ × Option Err) := do
  let (s, e) ← w.write s part
  match e with
  | some e => closeWith w s e
  | none => k s

/-- `msgNameLenBytes[n : n+1]`: panics beyond 255. message/messageParts.go:32, used by message/writeMsgRequest.go and
others. -/
def nameLenPart (n : Nat) : Go Bytes :=
  match msgNameLenBytes[n]? with
  | some b => .ok [b]
  | none => goPanic "slice bounds out of range"

/-- The recurring character check, e.g. message/writeMsgRequest.go:58-70: an unsupported byte is present. -/
def hasBadChar (name : Bytes) : Bool := name.any fun c => decide (c < 32) || decide (c > 126)

/-- message/messageParts.go:30 -/
def msgHeaderPadding : Bytes := [0]

/-- message/writeMsgRequest.go:13-133 -/
def writeMsgRequest {σ : Type} (w : Writer σ) (s : σ) (identifier name : Bytes) (enc : Encoding)
    (payload : Bytes) (safeMode : Bool) : Go (σ × Option Err) :=
  if name.length < 1 ∧ payload.length < 1 then
    closeWith w s "request message requires either a name, or a payload, or both"
  else if name.length > 255 then
    closeWith w s "unsupported request message name length"
  else if enc = encUtf16 ∧ payload.length % 2 ≠ 0 then
    closeWith w s "invalid UTF16 request payload data length"
  else if safeMode ∧ hasBadChar name then
    closeWith w s "unsupported character in request name"
  else
    let msgType := if enc = encUtf8 then MsgRequestUtf8
      else if enc = encUtf16 then MsgRequestUtf16 else MsgRequestBinary
    writePart w s [msgType] fun s =>
    writePart w s identifier fun s => do
    let nl ← nameLenPart name.length
    writePart w s nl fun s =>
    writePart w s name fun s =>
    if enc = encUtf16 ∧ name.length % 2 ≠ 0 then
      writePart w s msgHeaderPadding fun s =>
      writePart w s payload fun s => w.close s
    else
      writePart w s payload fun s => w.close s

/-- message/writeMsgSignal.go:12-113. Unlike requests there is no check for an empty signal here, and an
empty name is not written at all. -/
def writeMsgSignal {σ : Type} (w : Writer σ) (s : σ) (name : Bytes) (enc : Encoding)
    (payload : Bytes) (safeMode : Bool) : Go (σ × Option Err) :=
  if name.length > 255 then
    closeWith w s "unsupported request message name length"
  else if enc = encUtf16 ∧ payload.length % 2 ≠ 0 then
    closeWith w s "invalid UTF16 signal payload data length"
  else if safeMode ∧ hasBadChar name then
    closeWith w s "unsupported character in request name"
  else
    let msgType := if enc = encUtf8 then MsgSignalUtf8
      else if enc = encUtf16 then MsgSignalUtf16 else MsgSignalBinary
    let rest : σ → Go (σ × Option Err) := fun s =>
      if enc = encUtf16 ∧ name.length % 2 ≠ 0 then
        writePart w s msgHeaderPadding fun s =>
        writePart w s payload fun s => w.close s
      else
        writePart w s payload fun s => w.close s
    writePart w s [msgType] fun s => do
    let nl ← nameLenPart name.length
    writePart w s nl fun s =>
    if name.length > 0 then writePart w s name rest else rest s

/-- message/writeMsgReply.go:12-73 -/
def writeMsgReply {σ : Type} (w : Writer σ) (s : σ) (requestIdent : Bytes) (enc : Encoding)
    (payload : Bytes) : Go (σ × Option Err) :=
  if enc = encUtf16 ∧ payload.length % 2 ≠ 0 then
    closeWith w s "invalid UTF16 reply payload data length"
  else
    let msgType := if enc = encUtf8 then MsgReplyUtf8
      else if enc = encUtf16 then MsgReplyUtf16 else MsgReplyBinary
    writePart w s [msgType] fun s =>
    writePart w s requestIdent fun s =>
    if enc = encUtf16 then
      writePart w s msgHeaderPadding fun s =>
      writePart w s payload fun s => w.close s
    else
      writePart w s payload fun s => w.close s

/-- message/writeMsgErrorReply.go:10-105. All validation is skipped when `safeMode` is off, in which case a
code longer than 255 bytes panics at line 80, after two parts were written and before any `Close`. -/
def writeMsgReplyError {σ : Type} (w : Writer σ) (s : σ) (requestIdent code msg : Bytes)
    (safeMode : Bool) : Go (σ × Option Err) :=
  if safeMode ∧ code.length < 1 then
    closeWith w s "missing error code while creating a new error reply message"
  else if safeMode ∧ code.length > 255 then
    closeWith w s "invalid error code while creating a new error reply message, too long"
  else if safeMode ∧ hasBadChar code then
    closeWith w s "unsupported character in reply error - error code"
  else
    writePart w s [MsgReplyError] fun s =>
    writePart w s requestIdent fun s => do
    let nl ← nameLenPart code.length
    writePart w s nl fun s =>
    writePart w s code fun s =>
    writePart w s msg fun s => w.close s

/-- message/writeMsgSpecialRequestReply.go:10-54 -/
def writeMsgSpecialRequestReply {σ : Type} (w : Writer σ) (s : σ) (reqType : UInt8)
    (reqIdent : Bytes) : Go (σ × Option Err) :=
  let go (msgType : UInt8) : Go (σ × Option Err) :=
    writePart w s [msgType] fun s =>
    writePart w s reqIdent fun s => w.close s
  if reqType = MsgReplyInternalError then go MsgReplyInternalError
  else if reqType = MsgReplyMaxSessConnsReached then go MsgReplyMaxSessConnsReached
  else if reqType = MsgReplySessionNotFound then go MsgReplySessionNotFound
  else if reqType = MsgReplySessionsDisabled then go MsgReplySessionsDisabled
  else if reqType = MsgReplyShutdown then go MsgReplyShutdown
  else closeWith w s "message type doesn't represent a special reply message"

/-- message/writeMsgNamelessRequest.go:10-50 -/
def writeMsgNamelessRequest {σ : Type} (w : Writer σ) (s : σ) (reqType : UInt8)
    (identifier payload : Bytes) : Go (σ × Option Err) :=
  let go (msgType : UInt8) : Go (σ × Option Err) :=
    writePart w s [msgType] fun s =>
    writePart w s identifier fun s =>
    if payload.length > 0 then writePart w s payload fun s => w.close s
    else w.close s
  if reqType = MsgRequestRestoreSession then go MsgRequestRestoreSession
  else if reqType ≠ MsgRequestCloseSession then goPanic "unexpected nameless request type"
  else go MsgRequestCloseSession

/-- message/writeMsgHeartbeat.go:10-20 -/
def writeMsgHeartbeat {σ : Type} (w : Writer σ) (s : σ) : Go (σ × Option Err) :=
  writePart w s [MsgHeartbeat] fun s => w.close s

/-- message/writeMsgSessionClosed.go:10-20 -/
def writeMsgNotifySessionClosed {σ : Type} (w : Writer σ) (s : σ) : Go (σ × Option Err) :=
  writePart w s [MsgNotifySessionClosed] fun s => w.close s

/-- message/writeMsgSessionCreated.go:10-31 -/
def writeMsgNotifySessionCreated {σ : Type} (w : Writer σ) (s : σ) (sessionInfo : Bytes) : Go (σ × Option Err) :=
  writePart w s [MsgNotifySessionCreated] fun s =>
  writePart w s sessionInfo fun s => w.close s

/-! ## Lengths -/

/-- message/calcMsgLen.go:7-16 -/
def calcMsgLenSignal (name : Bytes) (enc : Encoding) (payload : Bytes) : Nat :=
  if enc = encUtf16 ∧ name.length % 2 ≠ 0 then 3 + name.length + payload.length
  else 2 + name.length + payload.length

/-- message/calcMsgLen.go:20-29 -/
def calcMsgLenRequest (name : Bytes) (enc : Encoding) (payload : Bytes) : Nat :=
  if enc = encUtf16 ∧ name.length % 2 ≠ 0 then 11 + name.length + payload.length
  else 10 + name.length + payload.length

/-! ## Server configuration message -/

/-- The fields of `message.ServerConfiguration` the server fills in (newServer.go:36-44); the sub-protocol
name is a value here. -/
structure ConfInput where
  major : UInt8
  minor : UInt8
  subProtocolName : Bytes
  readTimeout : Int
  /-- `uint32` -/
  messageBufferSize : UInt32
  deriving DecidableEq, Repr

/-- encoding/binary `LittleEndian.PutUint32` of `uint32(v)`. message/newAcceptConfMessage.go:31-32. -/
def putUint32 (v : Nat) : Bytes :=
  [UInt8.ofNat v, UInt8.ofNat (v / 256), UInt8.ofNat (v / 65536), UInt8.ofNat (v / 16777216)]

/-- message/newAcceptConfMessage.go:11-37. Go's `/` on durations truncates toward zero (`Int.tdiv`). -/
def newAcceptConfMessage (c : ConfInput) : Except Err Bytes :=
  let ms := c.readTimeout.tdiv 1000000
  if ms > 4294967295 then .error "read timeout (milliseconds) overflow in server conf message"
  else if ms < 0 then .error "negative read timeout (milliseconds) in server conf message"
  else .ok ([MsgAcceptConf, c.major, c.minor] ++ putUint32 ms.toNat ++
    putUint32 c.messageBufferSize.toNat ++ c.subProtocolName)

end Webwire
