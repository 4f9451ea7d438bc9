import Verif.Go

/-!
# Specification of the wire format

Independent of the parser and the writers: the layouts documented in /repo/message/message.go:9-117 and
the type numbers documented in message.go:119-214, written as sets of byte strings. Nothing of
`Verif.Model` is used here.
-/

set_option autoImplicit false

namespace Webwire.Spec

/-- The server configuration as the client sees it. -/
structure ConfView where
  major : UInt8 := 0
  minor : UInt8 := 0
  /-- a duration in nanoseconds -/
  readTimeout : Int := 0
  messageBufferSize : Nat := 0
  subProtocolName : Bytes := []
  deriving DecidableEq, Repr

/-- What the receiver of a message can see through the API. A message without identifier shows eight zero
bytes, a message without name or payload shows them empty, a message that isn't a server configuration
shows an all-zero configuration. -/
structure View where
  msgType : UInt8
  ident : Bytes := [0, 0, 0, 0, 0, 0, 0, 0]
  name : Bytes := []
  payload : Bytes := []
  conf : ConfView := {}
  deriving DecidableEq, Repr

/-- Documented payload encoding of a message type (0 binary, 1 UTF8, 2 UTF16); the payload of an error
reply (type 0) is UTF8 text. -/
def documentedEncoding (t : UInt8) : Int :=
  if t = 0 ∨ t = 64 ∨ t = 128 ∨ t = 192 then 1
  else if t = 65 ∨ t = 129 ∨ t = 193 then 2
  else 0

/-- Little endian value of four bytes. -/
def le4 (a b c d : UInt8) : Nat := a.toNat + 256 * (b.toNat + 256 * (c.toNat + 256 * d.toNat))

/-- `Grammar bytes v`: `bytes` is a well-formed message and `v` is what it says. -/
inductive Grammar : Bytes → View → Prop
  | heartbeat : Grammar [33] { msgType := 33 }
  | sessionClosed : Grammar [22] { msgType := 22 }
  | sessionCreated (info : Bytes) : info ≠ [] →
      Grammar (21 :: info) { msgType := 21, payload := info }
  | closeSession (id : Bytes) : id.length = 8 →
      Grammar (31 :: id) { msgType := 31, ident := id }
  | restoreSession (id key : Bytes) : id.length = 8 → key ≠ [] →
      Grammar (32 :: (id ++ key)) { msgType := 32, ident := id, payload := key }
  /-- shutdown, internal error, session not found, max connections, sessions disabled; whatever follows the
  identifier is ignored -/
  | special (t : UInt8) (id ignored : Bytes) : t ∈ [1, 2, 3, 4, 5] → id.length = 8 →
      Grammar (t :: (id ++ ignored)) { msgType := t, ident := id }
  | errorReply (id code text : Bytes) (n : UInt8) : id.length = 8 → n.toNat = code.length → code ≠ [] →
      Grammar (0 :: (id ++ n :: (code ++ text))) { msgType := 0, ident := id, name := code, payload := text }
  | signal (t n : UInt8) (name payload : Bytes) : t ∈ [63, 64] → n.toNat = name.length →
      (name ≠ [] ∨ payload ≠ []) →
      Grammar (t :: n :: (name ++ payload)) { msgType := t, name := name, payload := payload }
  /-- a UTF16 signal needs a payload; after a name of odd length there is one padding byte of any value -/
  | signal16 (n : UInt8) (name pad payload : Bytes) : n.toNat = name.length →
      pad.length = name.length % 2 → payload ≠ [] → payload.length % 2 = 0 →
      Grammar (65 :: n :: (name ++ pad ++ payload)) { msgType := 65, name := name, payload := payload }
  | request (t n : UInt8) (id name payload : Bytes) : t ∈ [127, 128] → id.length = 8 →
      n.toNat = name.length → (name ≠ [] ∨ payload ≠ []) →
      Grammar (t :: (id ++ n :: (name ++ payload)))
        { msgType := t, ident := id, name := name, payload := payload }
  | request16 (n : UInt8) (id name pad payload : Bytes) : id.length = 8 → n.toNat = name.length →
      pad.length = name.length % 2 → (name ≠ [] ∨ payload ≠ []) → payload.length % 2 = 0 →
      Grammar (129 :: (id ++ n :: (name ++ pad ++ payload)))
        { msgType := 129, ident := id, name := name, payload := payload }
  | reply (t : UInt8) (id payload : Bytes) : t ∈ [191, 192] → id.length = 8 →
      Grammar (t :: (id ++ payload)) { msgType := t, ident := id, payload := payload }
  | reply16 (pad : UInt8) (id payload : Bytes) : id.length = 8 → payload.length % 2 = 0 →
      Grammar (193 :: (id ++ pad :: payload)) { msgType := 193, ident := id, payload := payload }
  | conf (major minor t0 t1 t2 t3 s0 s1 s2 s3 : UInt8) (sub : Bytes) :
      Grammar (23 :: major :: minor :: t0 :: t1 :: t2 :: t3 :: s0 :: s1 :: s2 :: s3 :: sub)
        { msgType := 23, conf := { major := major, minor := minor,
                                   readTimeout := 1000000 * (le4 t0 t1 t2 t3 : Int),
                                   messageBufferSize := le4 s0 s1 s2 s3, subProtocolName := sub } }

/-- The type numbers of the protocol. -/
def messageTypes : List UInt8 :=
  [0, 1, 2, 3, 4, 5, 21, 22, 23, 31, 32, 33, 63, 64, 65, 127, 128, 129, 191, 192, 193]

end Webwire.Spec
