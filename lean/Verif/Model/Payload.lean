import Verif.Model.Message

/-!
# Payload conversion

Models `payload/payload.go` `Utf8` and `message/message.go` `PayloadUtf8`, together with the two functions of
Go's standard library they call.
-/

set_option autoImplicit false

namespace Webwire

/-- Go's `unicode/utf16.Decode` (standard library): surrogate pairs are combined, anything else between 0xd800 and
0xdfff becomes U+FFFD. A rune is a natural number. Used by payload/payload.go:29. -/
def utf16Decode : List UInt16 → List Nat
  | [] => []
  | [r] => if r < 0xd800 ∨ 0xe000 ≤ r then [r.toNat] else [0xfffd]
  | r :: r2 :: rest =>
    if r < 0xd800 ∨ 0xe000 ≤ r then r.toNat :: utf16Decode (r2 :: rest)
    else if 0xd800 ≤ r ∧ r < 0xdc00 ∧ 0xdc00 ≤ r2 ∧ r2 < 0xe000 then
      ((r.toNat - 0xd800) * 1024 + (r2.toNat - 0xdc00) + 0x10000) :: utf16Decode rest
    else 0xfffd :: utf16Decode (r2 :: rest)

/-- Go's `unicode/utf8.EncodeRune` (standard library): the bytes written. Used by payload/payload.go:30. -/
def utf8EncodeRune (r : Nat) : Bytes :=
  if r ≤ 0x7f then [UInt8.ofNat r]
  else if r ≤ 0x7ff then [(0xc0 : UInt8) ||| UInt8.ofNat (r >>> 6), (0x80 : UInt8) ||| (UInt8.ofNat r &&& 0x3f)]
  else
    let r := if r > 0x10ffff ∨ (0xd800 ≤ r ∧ r ≤ 0xdfff) then 0xfffd else r
    if r ≤ 0xffff then
      [(0xe0 : UInt8) ||| UInt8.ofNat (r >>> 12), (0x80 : UInt8) ||| (UInt8.ofNat (r >>> 6) &&& 0x3f),
       (0x80 : UInt8) ||| (UInt8.ofNat r &&& 0x3f)]
    else
      [(0xf0 : UInt8) ||| UInt8.ofNat (r >>> 18), (0x80 : UInt8) ||| (UInt8.ofNat (r >>> 12) &&& 0x3f),
       (0x80 : UInt8) ||| (UInt8.ofNat (r >>> 6) &&& 0x3f), (0x80 : UInt8) ||| (UInt8.ofNat r &&& 0x3f)]

/-- payload/payload.go:27-31: the loop over pairs of bytes. `rn[0]` is in range as `Decode` of one unit gives
one rune (`head?` is never `none`); a single trailing byte cannot occur, the length was checked before. -/
def utf8Loop : Bytes → Go Bytes
  | [] => .ok []
  | [_] => goPanic "index out of range"
  | lo :: hi :: rest => do
    let u := lo.toUInt16 + (hi.toUInt16 <<< 8)
    match utf16Decode [u] with
    | [] => goPanic "index out of range"
    | rn :: _ =>
      let tail ← utf8Loop rest
      return utf8EncodeRune rn ++ tail

/-- payload/payload.go:17-38 `Payload.Utf8`, on the bytes the payload shows. -/
def payloadUtf8 (enc : Encoding) (data : Bytes) : Go (Except Err Bytes) :=
  if enc = encUtf16 then
    if data.length % 2 ≠ 0 then .ok (.error "Cannot convert invalid UTF16 payload data to UTF8")
    else do
      let out ← utf8Loop data
      return .ok out
  else .ok (.ok data)

/-- message/message.go:291-296 `PayloadUtf8`. -/
def Msg.PayloadUtf8 (m : Msg) : Go (Except Err Bytes) :=
  if m.isEmpty then goPanic "read after close"
  else payloadUtf8 m.payload.encoding (m.payload.data.view m.buf)

end Webwire
