import Verif.GoMap
import Verif.Go

/-!
# What is saved of a session and what clients are told about it

Models how sessions are turned into JSON and back: `sessionFile` (defaultSessionManager.go), `JSONEncodedSession`
(session.go, connection.go, handleSessionRestore.go), `SessionInfoToVarMap` and `GenericSessionInfo`.

JSON documents are trees; how they are written as text is left out, encoding/json reads what it has written. Of
encoding/json the translation between Go values and documents is modelled. Go values have no identity here (see
Model/DeepCopy for that). Times are nanoseconds. Floating point numbers are a parameter.
-/

set_option autoImplicit false

namespace Webwire.Json

/-- What the standard library decides. `F` is float64. Used by defaultSessionManager.go:28, 33, connection.go:247-255,
handleSessionRestore.go:68-78. -/
structure Lib (F : Type) where
  /-- the nearest float64 (strconv.ParseFloat of a decimal integer) -/
  ofInt : Int → F
  /-- neither infinite nor NaN -/
  finite : F → Bool
  /-- the year has four digits, as time.Time.MarshalJSON wants it -/
  timeOk : Int → Bool
  /-- time.RFC3339Nano -/
  timeText : Int → Bytes

/-- A JSON document. Strings hold valid UTF-8. What defaultSessionManager.go:33, connection.go:247 and
handleSessionRestore.go:68 make. -/
inductive Doc (F : Type)
  | null
  | bool (b : Bool)
  | num (x : F)
  | str (s : Bytes)
  /-- the string that is the text of a time -/
  | time (t : Int)
  | arr (ds : List (Doc F))
  | obj (fs : List (Bytes × Doc F))

/-- A Go value in an `interface{}`. The values of defaultSessionManager.go:16 and session.go:45. -/
inductive Val (F : Type)
  /-- nil -/
  | null
  | bool (b : Bool)
  /-- of one of the integer types -/
  | int (n : Int)
  /-- float64 -/
  | float (x : F)
  | str (s : Bytes)
  /-- `[]interface{}` -/
  | slice (vs : List (Val F))
  | nilSlice
  /-- `map[string]interface{}` (as `GoMap`) -/
  | map (m : List (Bytes × Val F))
  | nilMap
  /-- of any other type (struct, array, pointer, `[]byte`, `[]int`, time.Time, ...) that json.Marshal accepts, and the
  document that it makes of it -/
  | other (d : Doc F)
  /-- of a type json.Marshal refuses (function, channel, complex number, ...) -/
  | bad

/-! ## Strings -/

/-- Continuation byte. Part of defaultSessionManager.go:33. -/
def isCont (b : UInt8) : Bool := 0x80 ≤ b && b ≤ 0xbf

/-- unicode/utf8 `DecodeRune`: how many bytes the first character takes; 0 if the first byte does not begin one. Part
of defaultSessionManager.go:33. -/
def runeLen : Bytes → Nat
  | [] => 0
  | a :: s =>
    if a < 0x80 then 1
    else if 0xc2 ≤ a ∧ a ≤ 0xdf then
      match s with
      | b :: _ => if isCont b then 2 else 0
      | _ => 0
    else if 0xe0 ≤ a ∧ a ≤ 0xef then
      match s with
      | b :: c :: _ =>
        if isCont b && isCont c && !(a == 0xe0 && b < 0xa0) && !(a == 0xed && 0x9f < b) then 3 else 0
      | _ => 0
    else if 0xf0 ≤ a ∧ a ≤ 0xf4 then
      match s with
      | b :: c :: d :: _ =>
        if isCont b && isCont c && isCont d && !(a == 0xf0 && b < 0x90) && !(a == 0xf4 && 0x8f < b) then 4 else 0
      | _ => 0
    else 0

/-- What becomes of the string, with room for the number of characters: bytes that are not UTF-8 are replaced by
U+FFFD one by one. Part of defaultSessionManager.go:33. -/
def sanitizeN : Nat → Bytes → Bytes
  | 0, _ => []
  | _ + 1, [] => []
  | n + 1, a :: s =>
    if runeLen (a :: s) = 0 then [0xef, 0xbf, 0xbd] ++ sanitizeN n s
    else (a :: s).take (runeLen (a :: s)) ++ sanitizeN n ((a :: s).drop (runeLen (a :: s)))

/-- encoding/json, encoding of strings. Part of defaultSessionManager.go:33. -/
def sanitize (s : Bytes) : Bytes := sanitizeN s.length s

/-! ## Values -/

section
variable {F : Type} (lib : Lib F)

/-- encoding/json: the fields of the object for a map, in the order of the keys. Part of defaultSessionManager.go:33.
-/
def fieldsOf (es : List (Bytes × Doc F)) : List (Bytes × Doc F) :=
  (es.mergeSort fun a b => decide (a.1 ≤ b.1)).map fun e => (sanitize e.1, e.2)

mutual

/-- json.Marshal; `none` is an error. Part of defaultSessionManager.go:33. -/
def encode : Val F → Option (Doc F)
  | .null | .nilSlice | .nilMap => some .null
  | .bool b => some (.bool b)
  | .int n => some (.num (lib.ofInt n))
  | .float x => if lib.finite x then some (.num x) else none
  | .str s => some (.str (sanitize s))
  | .slice vs => (encodeList vs).map .arr
  | .map m => (encodeMap m).map fun es => .obj (fieldsOf es)
  | .other d => some d
  | .bad => none

/-- The elements of a slice. Part of defaultSessionManager.go:33. -/
def encodeList : List (Val F) → Option (List (Doc F))
  | [] => some []
  | v :: vs => do
    let d ← encode v
    let ds ← encodeList vs
    return d :: ds

/-- The entries of a map. Part of defaultSessionManager.go:33. -/
def encodeMap : List (Bytes × Val F) → Option (List (Bytes × Doc F))
  | [] => some []
  | (k, v) :: m => do
    let d ← encode v
    let ds ← encodeMap m
    return (k, d) :: ds

end

/-- Assigning the fields of an object to a new map, one after the other. Part of defaultSessionManager.go:28. -/
def toMap (es : List (Bytes × Val F)) : GoMap Bytes (Val F) := es.foldl (fun m e => m.set e.1 e.2) []

mutual

/-- json.Unmarshal into an `interface{}`. Part of defaultSessionManager.go:28. -/
def decode : Doc F → Val F
  | .null => .null
  | .bool b => .bool b
  | .num x => .float x
  | .str s => .str s
  | .time t => .str (lib.timeText t)
  | .arr ds => .slice (decodeList ds)
  | .obj fs => .map (toMap (decodeFields fs))

/-- The elements of an array. Part of defaultSessionManager.go:28. -/
def decodeList : List (Doc F) → List (Val F)
  | [] => []
  | d :: ds => decode d :: decodeList ds

/-- The fields of an object. Part of defaultSessionManager.go:28. -/
def decodeFields : List (Bytes × Doc F) → List (Bytes × Val F)
  | [] => []
  | (k, d) :: fs => (k, decode d) :: decodeFields fs

end

/-! ## Session information -/

/-- interfaces.go:251-271 `SessionInfo` -/
structure Info (F : Type) where
  fields : List Bytes
  value : Bytes → Val F

/-- genericSessionInfo.go:76-120 `GenericSessionInfo` and `GenericSessionInfoParser`; `none` is a nil map. -/
def generic (data : Option (GoMap Bytes (Val F))) : Info F where
  fields := (data.getD []).keys
  value f := ((data.getD []).get f).getD .null

/-- sessionInfoToVarMap.go:6-15 `SessionInfoToVarMap`, and the same in connection.go:239-245. -/
def varMap (info : Option (Info F)) : Option (GoMap Bytes (Val F)) :=
  info.map fun i => i.fields.foldl (fun m f => m.set f (i.value f)) []

/-- session.go:51-56 `Session` -/
structure Session (F : Type) where
  key : Bytes
  creation : Int
  lastLookup : Int
  info : Option (Info F)

/-! ## Session files -/

/-- defaultSessionManager.go:13-17 `sessionFile` -/
structure SessionFile (F : Type) where
  creation : Int
  lastLookup : Int
  info : Option (GoMap Bytes (Val F))

/-- The names of the fields: "k", "c", "l", "i" (session.go:42-45, defaultSessionManager.go:14-16). -/
def nameK : Bytes := [107]
/-- "c" (session.go:43, defaultSessionManager.go:14) -/
def nameC : Bytes := [99]
/-- "l" (session.go:44, defaultSessionManager.go:15) -/
def nameL : Bytes := [108]
/-- "i" (session.go:45, defaultSessionManager.go:16) -/
def nameI : Bytes := [105]

/-- time.Time.MarshalJSON. defaultSessionManager.go:14-15, session.go:43-44. -/
def encodeTime (t : Int) : Option (Doc F) := if lib.timeOk t then some (.time t) else none

/-- A map, which may be nil. defaultSessionManager.go:16, session.go:45. -/
def encodeInfo : Option (GoMap Bytes (Val F)) → Option (Doc F)
  | none => encode lib .nilMap
  | some m => encode lib (.map m)

/-- defaultSessionManager.go:33: json.Marshal of a `sessionFile`. -/
def encodeFile (f : SessionFile F) : Option (Doc F) := do
  let c ← encodeTime lib f.creation
  let l ← encodeTime lib f.lastLookup
  let i ← encodeInfo lib f.info
  return .obj [(nameC, c), (nameL, l), (nameI, i)]

/-- json.Unmarshal of a field into a time.Time (a missing field and null leave `old`). A string is taken for a time
only if it was made from one. defaultSessionManager.go:14-15, session.go:43-44. -/
def decodeTime (old : Int) : Option (Doc F) → Option Int
  | none | some .null => some old
  | some (.time t) => some t
  | some _ => none

/-- json.Unmarshal of a field into a `map[string]interface{}` that is nil. defaultSessionManager.go:16, session.go:45.
-/
def decodeInfo : Option (Doc F) → Option (Option (GoMap Bytes (Val F)))
  | none | some .null => some none
  | some (.obj fs) => some (some (toMap (decodeFields lib fs)))
  | some _ => none

/-- defaultSessionManager.go:20-29: json.Unmarshal into a new `sessionFile` (time 0 stands for the zero time). Names are
compared exactly; a field that occurs twice does not occur in what the server writes. -/
def decodeFile : Doc F → Option (SessionFile F)
  | .obj fs => do
    let c ← decodeTime 0 (fs.lookup nameC)
    let l ← decodeTime 0 (fs.lookup nameL)
    let i ← decodeInfo lib (fs.lookup nameI)
    return ⟨c, l, i⟩
  | _ => none

/-- defaultSessionManager.go:100-108 `OnSessionCreated`, what it writes to the file. -/
def onSessionCreated (s : Session F) : Option (Doc F) :=
  encodeFile lib ⟨s.creation, s.lastLookup, varMap s.info⟩

/-- sessionLookupResult.go:20-24 `sessionLookupResult` -/
structure Lookup (F : Type) where
  creation : Int
  lastLookup : Int
  info : Option (GoMap Bytes (Val F))

/-- defaultSessionManager.go:130-156 `OnSessionLookup` at time `now`, for the contents of the file: the result and the new
contents; `none` is an error. -/
def onSessionLookup (now : Int) (file : Doc F) : Option (Lookup F × Doc F) := do
  let f ← decodeFile lib file
  let file ← encodeFile lib ⟨f.creation, now, f.info⟩
  return (⟨f.creation, f.lastLookup, f.info⟩, file)

/-! ## What clients are told -/

/-- session.go:41-46 `JSONEncodedSession` -/
structure JSONEncodedSession (F : Type) where
  key : Bytes
  creation : Int
  lastLookup : Int
  info : Option (GoMap Bytes (Val F))

/-- json.Marshal of a `JSONEncodedSession`: information without fields is left out (`omitempty`). connection.go:247,
handleSessionRestore.go:68. -/
def encodeSession (s : JSONEncodedSession F) : Option (Doc F) := do
  let c ← encodeTime lib s.creation
  let l ← encodeTime lib s.lastLookup
  let fs := [(nameK, .str (sanitize s.key)), (nameC, c), (nameL, l)]
  match s.info with
  | none | some [] => return .obj fs
  | some m =>
    let i ← encodeInfo lib (some m)
    return .obj (fs ++ [(nameI, i)])

/-- json.Unmarshal of a field into a string. session.go:42. -/
def decodeStr (old : Bytes) : Option (Doc F) → Option Bytes
  | none | some .null => some old
  | some (.str s) => some s
  | some (.time t) => some (lib.timeText t)
  | some _ => none

/-- json.Unmarshal into a new `JSONEncodedSession`, as clients do it (session.go:38-40). -/
def decodeSession : Doc F → Option (JSONEncodedSession F)
  | .obj fs => do
    let k ← decodeStr lib [] (fs.lookup nameK)
    let c ← decodeTime 0 (fs.lookup nameC)
    let l ← decodeTime 0 (fs.lookup nameL)
    let i ← decodeInfo lib (fs.lookup nameI)
    return ⟨k, c, l, i⟩
  | _ => none

/-- connection.go:237-255 `notifySessionCreated`: what is sent; `none` is an error. -/
def notification (s : Session F) : Option (Doc F) :=
  encodeSession lib ⟨s.key, s.creation, s.lastLookup, varMap s.info⟩

/-- handleSessionRestore.go:56-106: the session of the connection afterwards and what the client is sent; `none` is an
error. `parser` is `sessionInfoParser` (never nil, serverOptions.go:62-64). -/
def restored (parser : GoMap Bytes (Val F) → Info F) (key : Bytes) (r : Lookup F) : Option (Session F × Doc F) := do
  let reply ← encodeSession lib ⟨key, r.creation, r.lastLookup, r.info⟩
  return (⟨key, r.creation, r.lastLookup, r.info.map parser⟩, reply)

/-- connection.go:339-348 `Connection.SessionInfo` with that session. -/
def sessionInfo (s : Session F) (name : Bytes) : Val F :=
  match s.info with
  | none => .null
  | some i => i.value name

end

end Webwire.Json
