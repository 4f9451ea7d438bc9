import Verif.Model.BufferRead

/-!
# Reading from a reader that reports counts

Models `message/buffer.go` `Buffer.Read` once more, for readers that report any count whatever they stored.
-/

set_option autoImplicit false

namespace Webwire

/-- One answer of an `io.Reader` to a `Read` call: the bytes it stored into the slice it was given (as far as there is
room), the count it reports, and its error result. message/buffer.go:49. -/
structure Report where
  stored : Bytes
  count : Int
  err : Option RdErr
  deriving DecidableEq, Repr

/-- message/buffer.go:31-65 `Buffer.Read`, as `Msg.bufferRead`, with the check of lines 52-54. The count is ignored when
the buffer is full (line 36) and by `io.Copy` (line 40), which panics or fails with readers that report impossible
counts; that is not modelled. -/
def Msg.bufferReadCount (m : Msg) (cursor : Nat) : List Report → Go (Msg × Option Err × List Report)
  | [] => goBlock "reader"
  | r :: rest =>
    if cursor ≥ m.buf.length then
      let m := { m with buf := storeAt m.buf 0 r.stored }
      if r.err ≠ some .eof then do
        let m := m.bufferClose
        let left ← drain (rest.map fun r => (r.stored, r.err))
        return (m, some "message buffer overflow", rest.drop (rest.length - left.length))
      else .ok ({ m with len := cursor }, none, rest)
    else
      let m := { m with buf := storeAt m.buf cursor r.stored }
      if r.count < 0 then goPanic "negative read len"
      else
        let cursor := cursor + r.count.toNat
        match r.err with
        | some .eof => .ok ({ m with len := cursor }, none, rest)
        | some (.other e) => .ok (m.bufferClose, some e, rest)
        | none => m.bufferReadCount cursor rest

end Webwire
