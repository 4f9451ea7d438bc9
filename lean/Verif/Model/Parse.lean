import Verif.Model.Message

/-!
# Parsing

Models `message/parse*.go` and `message/read.go` (`ReadBytes`; `Read` is in `Model/BufferRead`).

Each function returns the mutated message and the error (`none` for `nil`); running out of bounds is
`goPanic`, with Go's rules for slice expressions.
-/

set_option autoImplicit false

namespace Webwire

/-- Result of the individual parsers: the mutated message and the returned error. message/parse.go:22-95: `err`. -/
abbrev ParseRes := Go (Msg × Option Err)

/-- The recurring "Read identifier" lines, e.g. message/parseRequest.go:18-20:
`msg.MsgIdentifierBytes = dat[1:9]; copy(msg.MsgIdentifier[:], msg.MsgIdentifierBytes)`. -/
def Msg.readIdent (m : Msg) (dat : Slice) : Go Msg := do
  let s ← dat.sub 1 9
  return { m with identBytes := s.ref, ident := goCopy m.ident s.view }

/-- encoding/binary `LittleEndian.Uint32` (needs 4 bytes, otherwise it panics). message/parseAcceptConf.go:25, 27. -/
def leUint32 (b : Bytes) : Go Nat :=
  match b with
  | b0 :: b1 :: b2 :: b3 :: _ =>
    .ok (b0.toNat + b1.toNat * 256 + b2.toNat * 65536 + b3.toNat * 16777216)
  | _ => goPanic "index out of range"

/-- `time.Millisecond` in nanoseconds. message/parseAcceptConf.go:26. -/
def millisecond : Int := 1000000

/-- message/parseAcceptConf.go:10-31 -/
def parseAcceptConf (m : Msg) : ParseRes := do
  if m.len < MinLenAcceptConf then
    return (m, some "invalid msg length, too short")
  let dat ← m.data
  let sub ← if m.len > MinLenAcceptConf then Slice.ref <$> dat.tail 11 else pure Ref.nil
  let major ← (← dat.sub 1 2).idx 0
  let minor ← (← dat.sub 2 3).idx 0
  let ms ← leUint32 (← dat.sub 3 7).view
  let size ← leUint32 (← dat.sub 7 11).view
  return ({ m with conf := {
      major := major
      minor := minor
      readTimeout := (ms : Int) * millisecond
      messageBufferSize := size
      subProtocolName := sub } }, none)

/-- message/parseHeartbeat.go:6-14 -/
def parseHeartbeat (m : Msg) : ParseRes :=
  if m.len ≠ 1 then .ok (m, some "invalid heartbeat message") else .ok (m, none)

/-- message/parseErrorReply.go:12-54 -/
def parseErrorReply (m : Msg) : ParseRes := do
  if m.len < MinLenReplyError then
    return (m, some "invalid error reply message, too short")
  let dat ← m.data
  let m ← m.readIdent dat
  let errCodeLen := (← (← dat.sub 9 10).idx 0).toNat
  let errMessageOffset := 10 + errCodeLen
  if errCodeLen < 1 then
    return (m, some "invalid error reply message, error code length flag is zero")
  if m.len < MinLenReplyError + errCodeLen - 1 then
    return (m, some "invalid error reply message, too short for specified code length")
  let name ← dat.sub 10 (10 + errCodeLen)
  let payload ← dat.tail errMessageOffset
  return ({ m with name := name.ref, payload := { encoding := encUtf8, data := payload.ref } }, none)

/-- message/parseSessionCreated.go:10-22 -/
def parseSessionCreated (m : Msg) : ParseRes := do
  if m.len < MinLenNotifySessionCreated then
    return (m, some "invalid session creation notification message, too short")
  let dat ← m.data
  let p ← dat.tail 1
  return ({ m with payload := { data := p.ref } }, none)

/-- message/parseSessionClosed.go:6-13 -/
def parseSessionClosed (m : Msg) : ParseRes :=
  if m.len ≠ MinLenNotifySessionClosed then
    .ok (m, some "invalid session closure notification message, too short")
  else .ok (m, none)

/-- message/parseCloseSession.go:6-18 -/
def parseCloseSession (m : Msg) : ParseRes := do
  if m.len ≠ MinLenDoCloseSession then
    return (m, some "invalid session destruction request message, too short")
  let m ← m.readIdent (← m.data)
  return (m, none)

/-- message/parseSignal.go:11-46 -/
def parseSignal (m : Msg) : ParseRes := do
  if m.len < MinLenSignal then
    return (m, some "invalid signal message, too short")
  let dat ← m.data
  let nameLen := (← dat.idx 1).toNat
  let minMsgLen := 2 + nameLen
  if m.len < minMsgLen then
    return (m, some "invalid signal message, too short for full name")
  if nameLen > 0 then
    let name ← dat.sub 2 minMsgLen
    let p ← dat.tail minMsgLen
    return ({ m with name := name.ref, payload := { data := p.ref } }, none)
  else
    let p ← dat.tail 2
    return ({ m with payload := { data := p.ref } }, none)

/-- message/parseSignalUtf16.go:11-62 -/
def parseSignalUtf16 (m : Msg) : ParseRes := do
  if m.len < MinLenSignalUtf16 then
    return (m, some "invalid signal message, too short")
  if m.len % 2 ≠ 0 then
    return (m, some "Unaligned UTF16 encoded signal message")
  let dat ← m.data
  let nameLen := (← dat.idx 1).toNat
  let minMsgSize := if nameLen % 2 ≠ 0 then MinLenSignalUtf16 + nameLen + 1 else MinLenSignalUtf16 + nameLen
  let payloadOffset := if nameLen % 2 ≠ 0 then 2 + nameLen + 1 else 2 + nameLen
  if m.len < minMsgSize then
    return (m, some "invalid signal message, too short for full name")
  if nameLen > 0 then
    let name ← dat.sub 2 (2 + nameLen)
    let p ← dat.tail payloadOffset
    return ({ m with name := name.ref, payload := { data := p.ref } }, none)
  else
    let p ← dat.tail 2
    return ({ m with payload := { data := p.ref } }, none)

/-- message/parseRequest.go:11-55 -/
def parseRequest (m : Msg) : ParseRes := do
  if m.len < MinLenRequest then
    return (m, some "invalid request message, too short")
  let dat ← m.data
  let m ← m.readIdent dat
  let nameLen := (← dat.idx 9).toNat
  let payloadOffset := 10 + nameLen
  if nameLen > 0 then
    if m.len < MinLenRequest + nameLen - 1 then
      return (m, some "invalid request message, too short for full name")
    let name ← dat.sub 10 (10 + nameLen)
    if m.len > MinLenRequest + nameLen - 1 then
      let p ← dat.tail payloadOffset
      return ({ m with name := name.ref, payload := { data := p.ref } }, none)
    else
      return ({ m with name := name.ref }, none)
  else
    let p ← dat.tail 10
    return ({ m with payload := { data := p.ref } }, none)

/-- message/parseRequestUtf16.go:11-76 -/
def parseRequestUtf16 (m : Msg) : ParseRes := do
  if m.len < MinLenRequestUtf16 then
    return (m, some "invalid request message, too short")
  if m.len % 2 ≠ 0 then
    return (m, some "unaligned UTF16 encoded request message")
  let dat ← m.data
  let m ← m.readIdent dat
  let nameLen := (← dat.idx 9).toNat
  let minRequired0 := if nameLen > 0 then 10 + nameLen else 12
  let padded := m.len > 10 + nameLen ∧ nameLen % 2 ≠ 0
  let minRequired := if padded then minRequired0 + 1 else minRequired0
  let payloadOffset := if padded then 10 + nameLen + 1 else 10 + nameLen
  if nameLen > 0 then
    if m.len < minRequired then
      return (m, some "invalid request message, too short for full name")
    let name ← dat.sub 10 (10 + nameLen)
    if m.len > minRequired then
      let p ← dat.tail payloadOffset
      return ({ m with name := name.ref, payload := { data := p.ref } }, none)
    else
      return ({ m with name := name.ref }, none)
  else
    let p ← dat.tail 10
    return ({ m with payload := { data := p.ref } }, none)

/-- message/parseReply.go:10-31 -/
def parseReply (m : Msg) : ParseRes := do
  if m.len < MinLenReply then
    return (m, some "invalid reply message, too short")
  let dat ← m.data
  let m ← m.readIdent dat
  if m.len = MinLenReply then
    return (m, none)
  let p ← dat.tail 9
  return ({ m with payload := { data := p.ref } }, none)

/-- message/parseReplyUtf16.go:9-42 -/
def parseReplyUtf16 (m : Msg) : ParseRes := do
  if m.len < MinLenReplyUtf16 then
    return (m, some "invalid UTF16 reply message, too short")
  if m.len % 2 ≠ 0 then
    return (m, some "unaligned UTF16 encoded reply message")
  let dat ← m.data
  let m ← m.readIdent dat
  if m.len = MinLenReplyUtf16 then
    return ({ m with payload := { encoding := encUtf16 } }, none)
  let p ← dat.tail 10
  return ({ m with payload := { data := p.ref } }, none)

/-- message/parseRestoreSession.go:10-28 -/
def parseRestoreSession (m : Msg) : ParseRes := do
  if m.len < MinLenRequestRestoreSession then
    return (m, some "invalid session restoration request message, too short")
  let dat ← m.data
  let m ← m.readIdent dat
  let p ← dat.tail 9
  return ({ m with payload := { data := p.ref } }, none)

/-- message/parseSpecialReplyMessage.go:8-18 -/
def parseSpecialReplyMessage (m : Msg) : ParseRes := do
  if m.len < 9 then
    return (m, some "invalid special reply message, too short")
  let m ← m.readIdent (← m.data)
  return (m, none)

/-- message/parse.go:16-97, the `switch`: which parser handles a type byte and which payload encoding is
assigned afterwards; `none` is the `default` case. -/
def parserFor (msgType : UInt8) : Option ((Msg → ParseRes) × Encoding) :=
  if msgType = MsgAcceptConf then some (parseAcceptConf, 0)
  else if msgType = MsgHeartbeat then some (parseHeartbeat, 0)
  else if msgType = MsgReplyError then some (parseErrorReply, 0)
  else if msgType = MsgNotifySessionCreated then some (parseSessionCreated, 0)
  else if msgType = MsgNotifySessionClosed then some (parseSessionClosed, 0)
  else if msgType = MsgRequestCloseSession then some (parseCloseSession, 0)
  else if msgType = MsgSignalBinary then some (parseSignal, encBinary)
  else if msgType = MsgSignalUtf8 then some (parseSignal, encUtf8)
  else if msgType = MsgSignalUtf16 then some (parseSignalUtf16, encUtf16)
  else if msgType = MsgRequestBinary then some (parseRequest, encBinary)
  else if msgType = MsgRequestUtf8 then some (parseRequest, encUtf8)
  else if msgType = MsgRequestUtf16 then some (parseRequestUtf16, encUtf16)
  else if msgType = MsgReplyBinary then some (parseReply, encBinary)
  else if msgType = MsgReplyUtf8 then some (parseReply, encUtf8)
  else if msgType = MsgReplyUtf16 then some (parseReplyUtf16, encUtf16)
  else if msgType = MsgRequestRestoreSession then some (parseRestoreSession, 0)
  else if msgType = MsgReplyShutdown then some (parseSpecialReplyMessage, 0)
  else if msgType = MsgReplyInternalError then some (parseSpecialReplyMessage, 0)
  else if msgType = MsgReplySessionNotFound then some (parseSpecialReplyMessage, 0)
  else if msgType = MsgReplyMaxSessConnsReached then some (parseSpecialReplyMessage, 0)
  else if msgType = MsgReplySessionsDisabled then some (parseSpecialReplyMessage, 0)
  else none

/-- Result of `parse`, `ReadBytes` and `Read`: mutated message, "type parsed" flag, error. message/parse.go:12,
message/read.go:9, 25. -/
abbrev ReadRes := Go (Msg × Bool × Option Err)

/-- message/parse.go:12-102 `parse`. Note lines 99-100: type and payload encoding are assigned after the
individual parser ran, even if that parser failed, and override the encoding it set. -/
def Msg.parse (m : Msg) : ReadRes := do
  if m.isEmpty then return (m, false, none)
  let s ← Slice.sub ⟨m.buf, 0, m.buf.length⟩ 0 1
  let msgType ← s.idx 0
  match parserFor msgType with
  | none => return (m, false, some "invalid message type")
  | some (parser, enc) =>
    let (m, err) ← parser m
    return ({ m with msgType := msgType, payload := { m.payload with encoding := enc } }, true, err)

/-- message/read.go:9-22 `ReadBytes`. -/
def Msg.readBytes (m : Msg) (bytes : Bytes) : ReadRes :=
  if bytes.length < 1 then .ok (m, false, none)
  else if bytes.length > m.buf.length then .ok (m, false, some "message buffer overflow")
  else
    let m := if m.isEmpty then m else m.bufferClose
    let m := { m with buf := goCopy m.buf bytes, len := bytes.length }
    m.parse

end Webwire
