import Verif.Model.Server

/-!
# An ideal network

What the other end of each connection receives, without failures other than disconnection. Used to say what
the server sends; statements about arbitrary (failing) sockets do not use it.
-/

set_option autoImplicit false

namespace Webwire.Spec

/-- For each connection: bytes written but not yet sent, messages received by the client so far, and whether
the connection is open. -/
structure Net where
  pending : ConnId → Bytes := fun _ => []
  out : ConnId → List Bytes := fun _ => []
  connected : ConnId → Bool := fun _ => true

/-- `Write` collects, `Close` delivers the collected bytes as one message (nothing if nothing was written);
a closed connection gives no writer. Messages longer than `cap` are refused, as by a fixed-size buffer. -/
def netSockets (cap : Option Nat) : Sockets Net where
  getWriter n c := if n.connected c then .ok (n, none) else .ok (n, some "disconnected")
  writer c :=
    { write := fun n b =>
        if cap.any fun k => decide ((n.pending c).length + b.length > k) then
          .ok ({ n with pending := fun i => if i = c then [] else n.pending i }, some "message buffer overflow")
        else .ok ({ n with pending := fun i => if i = c then n.pending c ++ b else n.pending i }, none)
      close := fun n =>
        if n.pending c = [] then .ok (n, some "no data written")
        else .ok ({ n with pending := fun i => if i = c then [] else n.pending i
                           out := fun i => if i = c then n.out c ++ [n.pending c] else n.out i }, none) }
  close n c := .ok ({ n with connected := fun i => if i = c then false else n.connected i }, none)
  isConnected n c := n.connected c

/-- The network with unlimited buffers. -/
abbrev idealSockets : Sockets Net := netSockets none

/-- A server on the ideal network. -/
def ideal {υ : Type} (srv : Server Net υ) : Prop := srv.sock = idealSockets

/-- A message that is a signal or a session notification. -/
def Notification (b : Bytes) : Prop := ∃ t rest, b = t :: rest ∧ t ∈ [63, 64, 65, 21, 22]

/-- A message that is a reply (of any kind). -/
def IsReply (b : Bytes) : Prop := ∃ t rest, b = t :: rest ∧ t ∈ [0, 1, 2, 3, 4, 5, 191, 192, 193]

instance (b : Bytes) : Decidable (IsReply b) :=
  match b with
  | [] => isFalse (by rintro ⟨t, r, h, _⟩; cases h)
  | t :: r =>
    if h : t ∈ [0, 1, 2, 3, 4, 5, 191, 192, 193] then isTrue ⟨t, r, rfl, h⟩
    else isFalse (by rintro ⟨t', r', h', hm⟩; cases h'; exact h hm)

/-- The replies among the messages a client received. -/
def replies (l : List Bytes) : List Bytes := l.filter fun b => decide (IsReply b)

end Webwire.Spec
