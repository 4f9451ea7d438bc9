/-!
# Go prelude

The few Go notions every model file uses.
-/

set_option autoImplicit false

namespace Webwire

/-- A Go byte sequence (`[]byte` or `string`) as a value. -/
abbrev Bytes := List UInt8

/-- A Go error value; only its text is kept. `nil` is `none : Option Err`. -/
abbrev Err := String

/-- How a Go call may fail to return. -/
inductive Stop
  /-- a run-time panic -/
  | panic (why : String)
  /-- the calling goroutine is blocked for ever -/
  | deadlock (why : String)
  deriving DecidableEq, Repr

/-- A Go call that returns an `α`, panics, or blocks for ever. -/
abbrev Go := Except Stop

/-- `panic(why)` -/
def goPanic {α : Type} (why : String) : Go α := .error (.panic why)

/-- The call never returns. -/
def goBlock {α : Type} (why : String) : Go α := .error (.deadlock why)

/-- `copy(dst, src)` on byte slices of equal backing length: the first `min` bytes are overwritten. -/
def goCopy (dst src : Bytes) : Bytes := src.take dst.length ++ dst.drop src.length

/-- A slice expression's result: a window of length `len` at offset `off` of the backing array `arr`.
Its capacity is `arr.length - off`, as for a slice made by `make` and resliced. -/
structure Slice where
  arr : Bytes
  off : Nat
  len : Nat
  deriving DecidableEq, Repr

/-- The bytes a slice currently shows. -/
def Slice.view (s : Slice) : Bytes := (s.arr.drop s.off).take s.len

/-- Go's `s[i:j]`. Go bounds `j` by the *capacity*, not by the length: reslicing beyond the length does not
panic, it exposes whatever the backing array holds there. -/
def Slice.sub (s : Slice) (i j : Nat) : Go Slice :=
  if i ≤ j ∧ s.off + j ≤ s.arr.length then .ok { s with off := s.off + i, len := j - i }
  else goPanic "slice bounds out of range"

/-- Go's `s[i:]` (upper bound is `len(s)`). -/
def Slice.tail (s : Slice) (i : Nat) : Go Slice :=
  if i ≤ s.len then .ok { s with off := s.off + i, len := s.len - i }
  else goPanic "slice bounds out of range"

/-- Go's `s[i]`. -/
def Slice.idx (s : Slice) (i : Nat) : Go UInt8 :=
  if i < s.len then
    match s.arr[s.off + i]? with
    | some b => .ok b
    | none => goPanic "index out of range"
  else goPanic "index out of range"

end Webwire
