import Verif.Model.Parse
import Verif.Spec.Wire

/-!
# What a receiver sees

The connection between message objects of the model and the views of `Spec.Wire`.
-/

set_option autoImplicit false

namespace Webwire

/-- What a receiver sees of a message object. -/
def Msg.shown (m : Msg) : Spec.View where
  msgType := m.msgType
  ident := m.ident
  name := m.name.view m.buf
  payload := m.payload.data.view m.buf
  conf := { major := m.conf.major, minor := m.conf.minor, readTimeout := m.conf.readTimeout,
            messageBufferSize := m.conf.messageBufferSize,
            subProtocolName := m.conf.subProtocolName.view m.buf }

/-- A message object as handed out by a pool: nothing of an earlier message is left in its fields (its
buffer may hold anything). -/
structure Clean (m : Msg) : Prop where
  len : m.len = 0
  msgType : m.msgType = 0
  ident : m.ident = zero8
  name : m.name = .nil
  payload : m.payload = {}
  conf : m.conf = {}

namespace Spec

/-- The message `m` shows these values through its API (`Identifier`, `Name`, `PayloadEncoding`, `Payload`),
and `MsgIdentifierBytes`, which replies are addressed with, agrees with the identifier. -/
structure Shows (m : Msg) (msgType : UInt8) (ident name : Bytes) (enc : Int) (payload : Bytes) : Prop where
  msgType : m.msgType = msgType
  ident : m.Identifier = .ok ident
  name : m.Name = .ok name
  encoding : m.PayloadEncoding = .ok enc
  payload : m.Payload = .ok payload

/-- The encoding a receiver should report: UTF8 and UTF16 as such, anything else is binary. -/
def canonEnc (enc : Int) : Int := if enc = 1 then 1 else if enc = 2 then 2 else 0

/-- Documented type byte of a request, signal or reply: base number for binary, +1 UTF8, +2 UTF16. -/
def typeByte (base : UInt8) (enc : Int) : UInt8 :=
  if enc = 1 then base + 1 else if enc = 2 then base + 2 else base

end Spec
end Webwire
