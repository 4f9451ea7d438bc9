import Verif.Model.Parse

/-!
# Reading a message from a stream

Models `message/buffer.go` `Buffer.Read` and `message/read.go` `Message.Read`.
-/

set_option autoImplicit false

namespace Webwire

/-- The error result of `io.Reader.Read`: `io.EOF` or something else. message/buffer.go:55-63 tells them apart. -/
inductive RdErr
  | eof
  | other (e : Err)
  deriving DecidableEq, Repr

/-- One answer of an `io.Reader` to a `Read` call: the bytes it stored into the slice it was given, and its
error result. The returned count is the number of bytes, so it is never negative; for
the check of message/buffer.go:52-54 see `Model/BufferCount`. -/
abbrev Answer := Bytes × Option RdErr

/-- `copy(buf[cursor:], bytes)`: what a reader's `Read(buf[cursor:])` does to the buffer. message/buffer.go:36, 49. -/
def storeAt (buf : Bytes) (cursor : Nat) (bytes : Bytes) : Bytes :=
  buf.take cursor ++ goCopy (buf.drop cursor) bytes

/-- `io.Copy(ioutil.Discard, reader)` (message/buffer.go:40): reads until the reader returns an error. The
answers consumed are dropped; a reader that never answers blocks the call. -/
def drain : List Answer → Go (List Answer)
  | [] => goBlock "reader"
  | (_, none) :: rest => drain rest
  | (_, some _) :: rest => .ok rest

/-- message/buffer.go:31-65 `Buffer.Read`: one iteration of the loop per answer of the reader. The reader is
the list of answers it gives to successive `Read` calls; when it has no further answer it blocks. Returns the
message with its buffer mutated, the error, and the answers left. -/
def Msg.bufferRead (m : Msg) (cursor : Nat) : List Answer → Go (Msg × Option Err × List Answer)
  | [] => goBlock "reader"
  | (bytes, err) :: rest =>
    if cursor ≥ m.buf.length then
      -- lines 34-48: "Expect EOF on full buffer"; the slice offered is the whole buffer
      let m := { m with buf := storeAt m.buf 0 bytes }
      if err ≠ some .eof then do
        let m := m.bufferClose
        -- io.Copy only reads on if this answer had not already failed for good: it always reads again
        let rest ← drain rest
        return (m, some "message buffer overflow", rest)
      else .ok ({ m with len := cursor }, none, rest)
    else
      let m := { m with buf := storeAt m.buf cursor bytes }
      let cursor := cursor + bytes.length
      match err with
      | some .eof => .ok ({ m with len := cursor }, none, rest)
      | some (.other e) => .ok (m.bufferClose, some e, rest)
      | none => m.bufferRead cursor rest

/-- message/read.go:25-30 `Message.Read`. -/
def Msg.read (m : Msg) (reader : List Answer) : Go (Msg × Bool × Option Err × List Answer) := do
  let (m, err, rest) ← m.bufferRead 0 reader
  match err with
  | some e => return (m, false, some e, rest)
  | none =>
    let (m, tp, err) ← m.parse
    return (m, tp, err, rest)

end Webwire
