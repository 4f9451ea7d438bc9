import Verif.Model.Write

/-!
# Observing a writer

To say what a `WriteMsg*` function does with *any* writer, the writer is wrapped so that its state also
holds the list of calls it received and their outcome.
-/

set_option autoImplicit false

namespace Webwire.Spec

/-- One call received by a writer. -/
inductive Event
  /-- `Write(b)` that returned `nil` -/
  | wrote (b : Bytes)
  /-- `Write(b)` that returned an error -/
  | writeFailed (b : Bytes)
  /-- `Close()`, with `true` if it returned `nil` -/
  | closed (ok : Bool)
  deriving DecidableEq, Repr

/-- The writer `w`, recording the calls it receives. -/
def observed {σ : Type} (w : Writer σ) : Writer (σ × List Event) where
  write := fun (s, log) b => do
    let (s, e) ← w.write s b
    match e with
    | none => return ((s, log ++ [.wrote b]), none)
    | some e => return ((s, log ++ [.writeFailed b]), some e)
  close := fun (s, log) => do
    let (s, e) ← w.close s
    match e with
    | none => return ((s, log ++ [.closed true]), none)
    | some e => return ((s, log ++ [.closed false]), some e)

/-- All bytes handed to `Write` calls that succeeded, in order. -/
def written : List Event → Bytes
  | [] => []
  | .wrote b :: l => b ++ written l
  | _ :: l => written l

/-- The calls made on the writer after which it must not be used any more. -/
def closes (log : List Event) : Nat := log.countP fun e => match e with | .closed _ => true | _ => false

/-- A writer that never panics and never blocks. -/
def Total {σ : Type} (w : Writer σ) : Prop :=
  (∀ s b, ∃ r, w.write s b = .ok r) ∧ ∀ s, ∃ r, w.close s = .ok r

/-- The ideal socket: `Write` collects, `Close` delivers the collected bytes as one message. -/
def pipe : Writer (Bytes × List Bytes) where
  write := fun (pending, out) b => .ok ((pending ++ b, out), none)
  close := fun (pending, out) => .ok (([], out ++ [pending]), none)

/-- What happens on a writer when a message of the given bytes is written. -/
def MsgLog (layout : Bytes) (log : List Event) (e : Option Err) : Prop :=
  (∃ chunks : List Bytes, chunks.flatten = layout ∧
      ((log = chunks.map .wrote ++ [.closed true] ∧ e = none) ∨
       (log = chunks.map .wrote ++ [.closed false] ∧ e ≠ none))) ∨
  (∃ (chunks : List Bytes) (b : Bytes) (ok : Bool), (chunks.flatten ++ b) <+: layout ∧
      log = chunks.map .wrote ++ [.writeFailed b, .closed ok] ∧ e ≠ none)

/-- What happens on a writer when the input is refused. -/
def RefuseLog (log : List Event) (e : Option Err) : Prop := (∃ ok, log = [.closed ok]) ∧ e ≠ none

/-- The writer is closed exactly once, as the last call, and nothing is written after a failed write. -/
def ClosedOnce (log : List Event) : Prop :=
  ∃ (chunks : List Bytes) (ok : Bool), log = chunks.map .wrote ++ [.closed ok] ∨
    ∃ b, log = chunks.map .wrote ++ [.writeFailed b, .closed ok]

/-- A call of one of the writer functions. -/
inductive WriterCall
  | request (id name : Bytes) (enc : Encoding) (payload : Bytes) (safeMode : Bool)
  | signal (name : Bytes) (enc : Encoding) (payload : Bytes) (safeMode : Bool)
  | reply (id : Bytes) (enc : Encoding) (payload : Bytes)
  | errorReply (id code text : Bytes) (safeMode : Bool)
  | special (t : UInt8) (id : Bytes)
  | nameless (t : UInt8) (id payload : Bytes)
  | heartbeat
  | sessionClosed
  | sessionCreated (info : Bytes)
  deriving DecidableEq, Repr

/-- Performing the call on a writer. -/
def WriterCall.run {σ : Type} (w : Writer σ) (s : σ) : WriterCall → Go (σ × Option Err)
  | .request id name enc payload safe => writeMsgRequest w s id name enc payload safe
  | .signal name enc payload safe => writeMsgSignal w s name enc payload safe
  | .reply id enc payload => writeMsgReply w s id enc payload
  | .errorReply id code text safe => writeMsgReplyError w s id code text safe
  | .special t id => writeMsgSpecialRequestReply w s t id
  | .nameless t id payload => writeMsgNamelessRequest w s t id payload
  | .heartbeat => writeMsgHeartbeat w s
  | .sessionClosed => writeMsgNotifySessionClosed w s
  | .sessionCreated info => writeMsgNotifySessionCreated w s info

/-- printable 7-bit ASCII -/
def Printable (c : UInt8) : Prop := 32 ≤ c.toNat ∧ c.toNat ≤ 126

/-- The documented validity conditions of each call. -/
def WriterCall.Valid : WriterCall → Prop
  | .request _ name enc payload safe => (name ≠ [] ∨ payload ≠ []) ∧ name.length ≤ 255 ∧
      (enc = 2 → payload.length % 2 = 0) ∧ (safe = true → ∀ c ∈ name, Printable c)
  | .signal name enc payload safe => name.length ≤ 255 ∧
      (enc = 2 → payload.length % 2 = 0) ∧ (safe = true → ∀ c ∈ name, Printable c)
  | .reply _ enc payload => enc = 2 → payload.length % 2 = 0
  | .errorReply _ code _ safe => safe = true → code ≠ [] ∧ code.length ≤ 255 ∧ ∀ c ∈ code, Printable c
  | .special t _ => t ∈ [1, 2, 3, 4, 5]
  | _ => True

/-- Calls on which the function panics instead of returning an error: an error reply with an oversized code
with safe mode off, and a nameless request of another type. -/
def WriterCall.Panics : WriterCall → Prop
  | .errorReply _ code _ safe => safe = false ∧ code.length > 255
  | .nameless t _ _ => t ∉ [31, 32]
  | _ => False

/-- Header padding of UTF16 messages. -/
def pad (enc : Int) (name : Bytes) : Bytes := if enc = 2 ∧ name.length % 2 = 1 then [0] else []

/-- The documented bytes of each message. -/
def WriterCall.layout : WriterCall → Bytes
  | .request id name enc payload _ => (if enc = 1 then 128 else if enc = 2 then 129 else 127) ::
      (id ++ [UInt8.ofNat name.length] ++ name ++ pad enc name ++ payload)
  | .signal name enc payload _ => (if enc = 1 then 64 else if enc = 2 then 65 else 63) ::
      ([UInt8.ofNat name.length] ++ name ++ pad enc name ++ payload)
  | .reply id enc payload => (if enc = 1 then 192 else if enc = 2 then 193 else 191) ::
      (id ++ (if enc = 2 then [0] else []) ++ payload)
  | .errorReply id code text _ => 0 :: (id ++ [UInt8.ofNat code.length] ++ code ++ text)
  | .special t id => t :: id
  | .nameless t id payload => t :: (id ++ payload)
  | .heartbeat => [33]
  | .sessionClosed => [22]
  | .sessionCreated info => 21 :: info

end Webwire.Spec
