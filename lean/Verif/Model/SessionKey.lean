import Verif.Go

/-!
# Session keys

Models session.go:14-36 and 77-109: random bytes encoded with `base64.URLEncoding` (standard library, with padding).
The random bytes are an argument; `none` is a failure of the random number generator.
-/

set_option autoImplicit false

namespace Webwire.Key

/-- The alphabet of `base64.URLEncoding` (encoding/base64: `encodeURL`). Used by session.go:35. -/
def alphabet : List UInt8 :=
  "ABCDEFGHIJKLMNOPQRSTUVWXYZabcdefghijklmnopqrstuvwxyz0123456789-_".toList.map fun c => UInt8.ofNat c.toNat

/-- The character for the low six bits (encoding/base64: `enc.encode[val&0x3F]`). Used by session.go:35. -/
def digit (v : Nat) : UInt8 := alphabet[v % 64]?.getD 0

/-- The padding character `=` (encoding/base64: `StdPadding`). Used by session.go:35. -/
def pad : UInt8 := 61

/-- encoding/base64 `Encoding.EncodeToString` as used in session.go:35: three bytes make four characters. The code
combines bytes with shifts and `|`; here they are written as products and sums, the bits being disjoint. -/
def encode : Bytes → Bytes
  | a :: b :: c :: rest =>
    let val := a.toNat * 65536 + b.toNat * 256 + c.toNat
    digit (val / 262144) :: digit (val / 4096) :: digit (val / 64) :: digit val :: encode rest
  | [a, b] =>
    let val := a.toNat * 65536 + b.toNat * 256
    [digit (val / 262144), digit (val / 4096), digit (val / 64), pad]
  | [a] =>
    let val := a.toNat * 65536
    [digit (val / 262144), digit (val / 4096), pad, pad]
  | [] => []

/-- session.go:14-23 `generateRandomBytes`: `read n` are the bytes the random number generator gives for a buffer of
`n` bytes, if it works. -/
def generateRandomBytes (read : Nat → Option Bytes) (length : Nat) : Option Bytes := read length

/-- session.go:30-36 `generateSessionKey`. -/
def generateSessionKey (read : Nat → Option Bytes) : Go Bytes :=
  match generateRandomBytes read 48 with
  | none => goPanic "Could not generate a session key"
  | some bytes => .ok (encode bytes)

/-- session.go:51-56 `Session`, without its times. -/
structure NewSession where
  key : Bytes
  info : Option Nat
  deriving DecidableEq

/-- session.go:79-93 `NewSession` (times left out; an info object is a reference). -/
def newSession (info : Option Nat) (generator : Go Bytes) : Go NewSession := do
  let key ← generator
  if key.length < 1 then goPanic "Invalid session key returned by the session key generator (empty)"
  else .ok ⟨key, info⟩

end Webwire.Key
