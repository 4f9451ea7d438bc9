import Verif.Model.SessionJson
import Verif.Props.Payload

/-!
# When two Go values are the same, and which of them JSON can express
-/

set_option autoImplicit false

namespace Webwire.Spec
open Json

/-- The bytes are a text in UTF-8. -/
def Text (s : Bytes) : Prop := ∃ cs : List Char, s = utf8 cs

/-- A step from a value into it: an element of a slice, an entry of a map. -/
inductive Into
  | elem (i : Nat)
  | key (k : Bytes)

/-- What can be seen of a value by itself: its type, and its value unless it consists of others. -/
inductive Kind (F : Type)
  | null
  | bool (b : Bool)
  | int (n : Int)
  | float (x : F)
  | str (s : Bytes)
  | slice (length : Nat)
  | nilSlice
  | map
  | nilMap
  | other
  | bad

variable {F : Type}

/-- What can be seen of a value by itself. -/
def kind : Val F → Kind F
  | .null => .null
  | .bool b => .bool b
  | .int n => .int n
  | .float x => .float x
  | .str s => .str s
  | .slice vs => .slice vs.length
  | .nilSlice => .nilSlice
  | .map _ => .map
  | .nilMap => .nilMap
  | .other _ => .other
  | .bad => .bad

/-- What is found by going into the value step by step. -/
def look : Val F → List Into → Option (Kind F)
  | v, [] => some (kind v)
  | .slice vs, .elem i :: p => vs[i]?.bind fun v => look v p
  | .map m, .key k :: p => (GoMap.get m k).bind fun v => look v p
  | _, _ => none

/-- The values cannot be told apart. -/
def Same (v w : Val F) : Prop := ∀ p, look v p = look w p

/-- A map that may be nil. -/
def asVal : Option (GoMap Bytes (Val F)) → Val F
  | none => .nilMap
  | some m => .map m

/-- The fields of session information with their values; nil if there is no information. -/
def infoVal : Option (Info F) → Val F
  | none => .nilMap
  | some i => .map (i.fields.map fun f => (f, i.value f))

/-- What JSON can express: nil, booleans, finite float64s, texts, and slices and maps of them that are not nil. -/
inductive Native (lib : Lib F) : Val F → Prop
  | null : Native lib .null
  | bool (b : Bool) : Native lib (.bool b)
  | float (x : F) (h : lib.finite x = true) : Native lib (.float x)
  | str (s : Bytes) (h : Text s) : Native lib (.str s)
  | slice (vs : List (Val F)) (h : ∀ v ∈ vs, Native lib v) : Native lib (.slice vs)
  | map (m : GoMap Bytes (Val F)) (hk : ∀ k ∈ m.keys, Text k) (h : ∀ e ∈ m, Native lib e.2) : Native lib (.map m)

/-- Every JSON document. -/
inductive ValidDoc (lib : Lib F) : Doc F → Prop
  | null : ValidDoc lib .null
  | bool (b : Bool) : ValidDoc lib (.bool b)
  | num (x : F) (h : lib.finite x = true) : ValidDoc lib (.num x)
  | str (s : Bytes) (h : Text s) : ValidDoc lib (.str s)
  | time (t : Int) : ValidDoc lib (.time t)
  | arr (ds : List (Doc F)) (h : ∀ d ∈ ds, ValidDoc lib d) : ValidDoc lib (.arr ds)
  | obj (fs : List (Bytes × Doc F)) (hk : ∀ e ∈ fs, Text e.1) (h : ∀ e ∈ fs, ValidDoc lib e.2) : ValidDoc lib (.obj fs)

/-- Every Go value: integers have at most 64 bits, maps hold keys once, and marshalling gives JSON documents. -/
inductive GoVal (lib : Lib F) : Val F → Prop
  | null : GoVal lib .null
  | bool (b : Bool) : GoVal lib (.bool b)
  | int (n : Int) (h : -2 ^ 63 ≤ n ∧ n < 2 ^ 64) : GoVal lib (.int n)
  | float (x : F) : GoVal lib (.float x)
  | str (s : Bytes) : GoVal lib (.str s)
  | slice (vs : List (Val F)) (h : ∀ v ∈ vs, GoVal lib v) : GoVal lib (.slice vs)
  | nilSlice : GoVal lib .nilSlice
  | map (m : GoMap Bytes (Val F)) (hk : m.WF) (h : ∀ e ∈ m, GoVal lib e.2) : GoVal lib (.map m)
  | nilMap : GoVal lib .nilMap
  | other (d : Doc F) (h : ValidDoc lib d) : GoVal lib (.other d)
  | bad : GoVal lib .bad

/-- What is known of the library: integers of Go's types are not converted to infinities, the text of a time is a
text. -/
structure Lawful (lib : Lib F) : Prop where
  ofInt : ∀ n : Int, -2 ^ 63 ≤ n → n < 2 ^ 64 → lib.finite (lib.ofInt n) = true
  timeText : ∀ t, Text (lib.timeText t)

/-- The values of the fields are Go values. -/
def GoInfo (lib : Lib F) (info : Option (Info F)) : Prop := ∀ i, info = some i → ∀ f ∈ i.fields, GoVal lib (i.value f)

/-- The file is looked up at those times, one after the other, with those results. -/
inductive LookedUp (lib : Lib F) : Doc F → List (Int × Lookup F) → Prop
  | none (file : Doc F) : LookedUp lib file []
  | next (file file' : Doc F) (now : Int) (r : Lookup F) (rs : List (Int × Lookup F))
      (h : onSessionLookup lib now file = some (r, file')) (h' : LookedUp lib file' rs) : LookedUp lib file ((now, r) :: rs)

end Webwire.Spec
