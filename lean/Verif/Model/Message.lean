import Verif.Go

/-!
# Message objects

Models `message/message.go`, `message/buffer.go` (without `Read`, see `Model/BufferRead`),
`message/newMessage.go`, `payload/encoding.go` and the type table of `message/messageParts.go`.
-/

set_option autoImplicit false

namespace Webwire

/-! ## Constants -/

/-- payload/encoding.go:4 `type Encoding int` (any int can be passed by a caller). -/
abbrev Encoding := Int
/-- payload/encoding.go:8 -/
def encBinary : Encoding := 0
/-- payload/encoding.go:11 -/
def encUtf8 : Encoding := 1
/-- payload/encoding.go:14 -/
def encUtf16 : Encoding := 2

/-- message/message.go:17 -/
def MinLenSignal : Nat := 3
/-- message/message.go:27 -/
def MinLenSignalUtf16 : Nat := 4
/-- message/message.go:37 -/
def MinLenRequest : Nat := 11
/-- message/message.go:48 -/
def MinLenRequestUtf16 : Nat := 11
/-- message/message.go:56 -/
def MinLenReply : Nat := 9
/-- message/message.go:65 -/
def MinLenReplyUtf16 : Nat := 10
/-- message/message.go:78 -/
def MinLenReplyError : Nat := 11
/-- message/message.go:86 -/
def MinLenRequestRestoreSession : Nat := 10
/-- message/message.go:93 -/
def MinLenDoCloseSession : Nat := 9
/-- message/message.go:100 -/
def MinLenNotifySessionCreated : Nat := 2
/-- message/message.go:106 -/
def MinLenNotifySessionClosed : Nat := 1
/-- message/message.go:116 -/
def MinLenAcceptConf : Nat := 11

/-- message/message.go:124 -/
def MsgReplyError : UInt8 := 0
/-- message/message.go:129 -/
def MsgReplyShutdown : UInt8 := 1
/-- message/message.go:133 -/
def MsgReplyInternalError : UInt8 := 2
/-- message/message.go:137 -/
def MsgReplySessionNotFound : UInt8 := 3
/-- message/message.go:142 -/
def MsgReplyMaxSessConnsReached : UInt8 := 4
/-- message/message.go:146 -/
def MsgReplySessionsDisabled : UInt8 := 5
/-- message/message.go:150 -/
def MsgNotifySessionCreated : UInt8 := 21
/-- message/message.go:154 -/
def MsgNotifySessionClosed : UInt8 := 22
/-- message/message.go:158 -/
def MsgAcceptConf : UInt8 := 23
/-- message/message.go:164 -/
def MsgRequestCloseSession : UInt8 := 31
/-- message/message.go:168 -/
def MsgRequestRestoreSession : UInt8 := 32
/-- message/message.go:173 -/
def MsgHeartbeat : UInt8 := 33
/-- message/message.go:181 -/
def MsgSignalBinary : UInt8 := 63
/-- message/message.go:184 -/
def MsgSignalUtf8 : UInt8 := 64
/-- message/message.go:187 -/
def MsgSignalUtf16 : UInt8 := 65
/-- message/message.go:194 -/
def MsgRequestBinary : UInt8 := 127
/-- message/message.go:197 -/
def MsgRequestUtf8 : UInt8 := 128
/-- message/message.go:200 -/
def MsgRequestUtf16 : UInt8 := 129
/-- message/message.go:207 -/
def MsgReplyBinary : UInt8 := 191
/-- message/message.go:210 -/
def MsgReplyUtf8 : UInt8 := 192
/-- message/message.go:213 -/
def MsgReplyUtf16 : UInt8 := 193

/-- message/messageParts.go:32-97 `msgNameLenBytes`, transcribed literally. -/
def msgNameLenBytes : List UInt8 := [
  0, 1, 2, 3,
  4, 5, 6, 7,
  8, 9, 10, 11,
  12, 13, 14, 15,
  16, 17, 18, 19,
  20, 21, 22, 23,
  24, 25, 26, 27,
  28, 29, 30, 31,
  32, 33, 34, 35,
  36, 37, 38, 39,
  40, 41, 42, 43,
  44, 45, 46, 47,
  48, 49, 50, 51,
  52, 53, 54, 55,
  56, 57, 58, 59,
  60, 61, 62, 63,
  64, 65, 66, 67,
  68, 69, 70, 71,
  72, 73, 74, 75,
  76, 77, 78, 79,
  80, 81, 82, 83,
  84, 85, 86, 87,
  88, 89, 90, 91,
  92, 93, 94, 95,
  96, 97, 98, 99,
  100, 101, 102, 103,
  104, 105, 106, 107,
  108, 109, 110, 111,
  112, 113, 114, 115,
  116, 117, 118, 119,
  120, 121, 122, 123,
  124, 125, 126, 127,
  128, 129, 130, 131,
  132, 133, 134, 135,
  136, 137, 138, 139,
  140, 141, 142, 143,
  144, 145, 146, 147,
  148, 149, 150, 151,
  152, 153, 154, 155,
  156, 157, 158, 159,
  160, 161, 162, 163,
  164, 165, 166, 167,
  168, 169, 170, 171,
  172, 173, 174, 175,
  176, 177, 178, 179,
  180, 181, 182, 183,
  184, 185, 186, 187,
  188, 189, 190, 191,
  192, 193, 194, 195,
  196, 197, 198, 199,
  200, 201, 202, 203,
  204, 205, 206, 207,
  208, 209, 210, 211,
  212, 213, 214, 215,
  216, 217, 218, 219,
  220, 221, 222, 223,
  224, 225, 226, 227,
  228, 229, 230, 231,
  232, 233, 234, 235,
  236, 237, 238, 239,
  240, 241, 242, 243,
  244, 245, 246, 247,
  248, 249, 250, 251,
  252, 253, 254, 255]

/-! ## Message objects -/

/-- A byte slice stored in a field of a message: `nil`, memory of its own, or a window of the message's own buffer (in
which case it shows whatever the buffer holds *now*). The fields of message/message.go:226-238. -/
inductive Ref
  | nil
  | own (b : Bytes)
  | buf (off len : Nat)
  deriving DecidableEq, Repr

/-- The bytes a stored slice shows, given the current contents of the buffer array. The fields of
message/message.go:226-238, as message/message.go:259-296 return them. -/
def Ref.view (arr : Bytes) : Ref → Bytes
  | .nil => []
  | .own b => b
  | .buf off len => (arr.drop off).take len

/-- The stored form of a slice of the message buffer. Assignments as in message/parseRequest.go:19, 39, 44. -/
def Slice.ref (s : Slice) : Ref := .buf s.off s.len

/-- payload/payload.go:11-14 `Payload`. -/
structure Payload where
  encoding : Encoding := 0
  data : Ref := .nil
  deriving DecidableEq, Repr

/-- message/message.go:217-223 `ServerConfiguration`; `readTimeout` is a `time.Duration` in nanoseconds. -/
structure ServerConf where
  major : UInt8 := 0
  minor : UInt8 := 0
  subProtocolName : Ref := .nil
  readTimeout : Int := 0
  messageBufferSize : Nat := 0
  deriving DecidableEq, Repr

/-- message/message.go:226-238 `Message` (with `MsgBuffer` of message/buffer.go:10-13 flattened into
`buf`/`len`; the `onClose` callback is modelled in `Model/Pool`). -/
structure Msg where
  /-- `MsgBuffer.buf`, the whole backing array -/
  buf : Bytes
  /-- `MsgBuffer.len` -/
  len : Nat
  msgType : UInt8
  /-- `MsgIdentifier [8]byte` -/
  ident : Bytes
  identBytes : Ref
  name : Ref
  payload : Payload
  conf : ServerConf
  deriving DecidableEq, Repr

/-- `[8]byte{}`. message/message.go:306. -/
def zero8 : Bytes := List.replicate 8 0

/-- message/newMessage.go:4-12 `NewMessage`. -/
def newMessage (bufferSize : Nat) : Msg where
  buf := List.replicate bufferSize 0
  len := 0
  msgType := 0
  ident := zero8
  identBytes := .own zero8
  name := .nil
  payload := {}
  conf := {}

/-- message/buffer.go:21-23 `Buffer.IsEmpty`. -/
def Msg.isEmpty (m : Msg) : Bool := decide (m.len < 1)

/-- message/buffer.go:26-28 `Buffer.Close`. -/
def Msg.bufferClose (m : Msg) : Msg := { m with len := 0 }

/-- message/buffer.go:68-70 `Buffer.Data`: `buf.buf[:buf.len]`. -/
def Msg.data (m : Msg) : Go Slice := Slice.sub ⟨m.buf, 0, m.buf.length⟩ 0 m.len

/-- message/message.go:242-256 `RequiresReply`. -/
def Msg.requiresReply (m : Msg) : Bool :=
  m.msgType == MsgRequestCloseSession || m.msgType == MsgRequestRestoreSession ||
  m.msgType == MsgRequestBinary || m.msgType == MsgRequestUtf8 || m.msgType == MsgRequestUtf16

/-- message/message.go:259-264 `Identifier`. -/
def Msg.Identifier (m : Msg) : Go Bytes :=
  if m.isEmpty then goPanic "read after close" else .ok m.ident

/-- message/message.go:267-272 `Name`. -/
def Msg.Name (m : Msg) : Go Bytes :=
  if m.isEmpty then goPanic "read after close" else .ok (m.name.view m.buf)

/-- message/message.go:275-280 `PayloadEncoding`. -/
def Msg.PayloadEncoding (m : Msg) : Go Encoding :=
  if m.isEmpty then goPanic "read after close" else .ok m.payload.encoding

/-- message/message.go:283-288 `Payload`. -/
def Msg.Payload (m : Msg) : Go Bytes :=
  if m.isEmpty then goPanic "read after close" else .ok (m.payload.data.view m.buf)

/-- message/message.go:299-314 `Close`. The flag says whether the `onClose` callback ran (it returns the
message to its pool, see `Model/Pool`). -/
def Msg.close (m : Msg) : Msg × Bool :=
  if m.isEmpty then (m, false)
  else ({ m with len := 0, msgType := 0, ident := zero8, identBytes := .nil, name := .nil,
                 payload := {}, conf := {} }, true)

end Webwire
