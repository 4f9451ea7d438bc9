import Verif.Model.MemchanNil

/-!
# Calls made on memchan's sockets and transports

Property C105.
-/

set_option autoImplicit false

namespace Webwire.Nil.Spec

/-- A call is made on an object the caller has. -/
def Valid (h : Heap) : Op → Prop
  | .newTransport | .newSocket none => True
  | .init t _ | .shutdown t | .newSocket (some t) | .newPair t => t < h.trans.length
  | .dial a _ _ | .begin a | .isConnected a | .remoteAddr a | .close a => a < h.socks.length

/-- What calls lead to. -/
inductive Steps (h : Heap) : Heap → Prop
  | refl : Steps h h
  | step (h1 h2 : Heap) (op : Op) (r : Res) : Steps h h1 → Valid h1 op → run h1 op = .ok (h2, r) → Steps h h2

/-- What there is after any calls, when in the beginning there is nothing. -/
def Reachable (h : Heap) : Prop := Steps {} h

/-- The call is to make sockets of a transport that has no buffer size: that was not initialised, or with size 0. -/
def NoBuffers (h : Heap) : Op → Prop
  | .newSocket (some t) | .newPair t => ∃ tr, h.trans[t]? = some tr ∧ tr.bufferSize = 0
  | _ => False

end Webwire.Nil.Spec
