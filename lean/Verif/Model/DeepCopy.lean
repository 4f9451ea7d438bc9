import Verif.Go
import Verif.GoMap

/-!
# Copying session information

Models genericSessionInfo.go and `Session.Clone` over a heap with maps, backing arrays of slices and variables that
pointers point to.

Simplifications: types are left out except for the kind of every value; the elements of a new slice between its length
and its capacity, zero values in Go, are the number 0; keys of maps are opaque, since comparable values are copied as
they are, except that the nil interface and NaN are told apart. Structs and arrays are nested pairs of their fields.
-/

set_option autoImplicit false

namespace Webwire.Copying

/-- An address. Memory is where genericSessionInfo.go:46, 59 allocate. -/
abbrev Loc := Nat

/-- The key of a map. genericSessionInfo.go:60-65. -/
inductive Key
  /-- a string, number, ... or an interface holding one -/
  | val (n : Nat)
  /-- the nil interface -/
  | nilInterface
  /-- not a number; different from every key, itself too -/
  | nan
  deriving DecidableEq, Repr

/-- A Go value as the `reflect` package sees it. genericSessionInfo.go:27-70 tells the kinds apart. -/
inductive Val
  /-- boolean, number, string, function, channel -/
  | scalar (n : Nat)
  /-- an interface without a value -/
  | nilInter
  /-- an interface and its value -/
  | inter (v : Val)
  | nilSlice
  | slice (l : Loc) (off len cap : Nat)
  | nilMap
  | map (l : Loc)
  | nilPtr
  | ptr (l : Loc)
  /-- a struct or array: its first field, and the others -/
  | fields (first rest : Val)
  deriving DecidableEq, Repr

/-- What is at an address. genericSessionInfo.go:41-66: backing arrays and maps. -/
inductive Obj
  /-- the backing array of slices -/
  | arr (vs : List Val)
  /-- a map -/
  | dict (m : GoMap Key Val)
  /-- a variable -/
  | cell (v : Val)
  deriving Repr

/-- The memory; addresses from `next` on are free. genericSessionInfo.go:46, 59 allocate in it. -/
structure Heap where
  objs : Loc → Obj
  next : Loc

namespace Heap

/-- `h` with an object replaced. genericSessionInfo.go:52, 65 (`Index`, `SetMapIndex`). -/
def put (h : Heap) (l : Loc) (o : Obj) : Heap := { h with objs := fun x => if x = l then o else h.objs x }

/-- A new object. genericSessionInfo.go:46, 59 (`MakeSlice`, `MakeMap`). -/
def alloc (h : Heap) (o : Obj) : Heap × Loc := ({ objs := fun x => if x = h.next then o else h.objs x, next := h.next + 1 }, h.next)

/-- An element of a backing array. genericSessionInfo.go:52 (`Index`). -/
def elem (h : Heap) (l : Loc) (i : Nat) : Val :=
  match h.objs l with
  | .arr vs => vs.getD i (.scalar 0)
  | _ => .scalar 0

/-- The entries of a map. genericSessionInfo.go:60-61 (`MapKeys`, `MapIndex`). -/
def entries (h : Heap) (l : Loc) : GoMap Key Val :=
  match h.objs l with
  | .dict m => m
  | _ => []

end Heap

/-- genericSessionInfo.go:52: assigning to an element of the new slice. -/
def setElem (h : Heap) (l : Loc) (i : Nat) (v : Val) : Heap :=
  match h.objs l with
  | .arr vs => h.put l (.arr (vs.set i v))
  | _ => h

/-- genericSessionInfo.go:65: `SetMapIndex`. -/
def setKey (h : Heap) (l : Loc) (k : Key) (v : Val) : Heap := h.put l (.dict ((h.entries l).set k v))

/-- genericSessionInfo.go:51-53: one element of the slice with offset `off` in the array at `l`. -/
def copyElem (copy : Heap → Val → Go (Heap × Val)) (l off l' : Nat) (h : Heap) (i : Nat) : Go Heap := do
  let r ← copy h (h.elem l (off + i))
  return setElem r.1 l' i r.2

/-- genericSessionInfo.go:60-66: one entry of the map at `l`. `MapIndex` finds no value for NaN, and asking the result for
its type panics (line 62); the copy of a nil interface key is nil (lines 8-10, 64), which `SetMapIndex` does not take
(line 65). -/
def copyEntry (copy : Heap → Val → Go (Heap × Val)) (l l' : Loc) (h : Heap) (k : Key) : Go Heap :=
  match (if k = .nan then none else (h.entries l).get k) with
  | none => goPanic "reflect: call of reflect.Value.Type on zero Value"
  | some v => do
    let r ← copy h v
    if k = .nilInterface then goPanic "reflect: call of reflect.Value.Type on zero Value"
    else return setKey r.1 l' k r.2

/-- genericSessionInfo.go:25-71 `copyRecursive`, with the depth of recursion the stack has room for. `order` is the order
in which `MapKeys` lists the keys.

Lines 28-39, interfaces. Lines 41-53, slices. Lines 55-66, maps. Lines 68-69: everything else is copied as it is, pointers
and structs with what they refer to included. -/
def copyRec (order : Heap → Loc → List Key) : Nat → Heap → Val → Go (Heap × Val)
  | 0, _, _ => goPanic "stack overflow"
  | n + 1, h, .inter v => do
    let r ← copyRec order n h v
    return (r.1, .inter r.2)
  | n + 1, h, .slice l off len cap => do
    let r := h.alloc (.arr (List.replicate cap (.scalar 0)))
    let h' ← (List.range len).foldlM (copyElem (copyRec order n) l off r.2) r.1
    return (h', .slice r.2 0 len cap)
  | n + 1, h, .map l => do
    let r := h.alloc (.dict [])
    let h' ← (order h l).foldlM (copyEntry (copyRec order n) l r.2) r.1
    return (h', .map r.2)
  | _ + 1, h, v => .ok (h, v)

/-- genericSessionInfo.go:7-23 `deepCopy`: of a value in an interface. -/
def deepCopy (order : Heap → Loc → List Key) (depth : Nat) (h : Heap) (src : Val) : Go (Heap × Val) :=
  match src with
  | .inter v => do
    let (h, v) ← copyRec order depth h v
    return (h, .inter v)
  | _ => .ok (h, .nilInter)

/-- session.go:51-56 `Session` with information of the type `GenericSessionInfo` (genericSessionInfo.go:76-78); `info` is
its map. -/
structure Session where
  key : Bytes
  creation : Int
  lastLookup : Int
  info : Option Val
  deriving Repr

/-- genericSessionInfo.go:82-86 `Copy`. -/
def copyInfo (order : Heap → Loc → List Key) (depth : Nat) (h : Heap) (data : Val) : Go (Heap × Val) := do
  match ← deepCopy order depth h (.inter data) with
  | (h, .inter v) => return (h, v)
  | _ => goPanic "interface conversion"

/-- session.go:59-75 `Clone`; connection.go:307-312 `Connection.Session` returns it. -/
def clone (order : Heap → Loc → List Key) (depth : Nat) (h : Heap) : Option Session → Go (Heap × Option Session)
  | none => .ok (h, none)
  | some s =>
    match s.info with
    | none => .ok (h, some { s with info := none })
    | some data => do
      let (h, data) ← copyInfo order depth h data
      return (h, some { s with info := some data })

/-- genericSessionInfo.go:90-101 `Fields`, in any order. -/
def fields (h : Heap) : Val → List Key
  | .map l => (h.entries l).keys
  | _ => []

/-- genericSessionInfo.go:105-113 `Value`; connection.go:339-348 `Connection.SessionInfo` returns it. -/
def value (order : Heap → Loc → List Key) (depth : Nat) (h : Heap) (data : Val) (k : Key) : Go (Heap × Val) :=
  match data with
  | .map l =>
    match (h.entries l).get k with
    | some v => deepCopy order depth h v
    | none => .ok (h, .nilInter)
  | _ => .ok (h, .nilInter)

/-- interfaces.go:251-271 `SessionInfo`, as far as it is used here: the methods of a value of the interface. -/
structure Info where
  fields : Heap → List Key
  value : Heap → Key → Go (Heap × Val)

/-- `GenericSessionInfo` as a `SessionInfo`; `Fields` lists the names in any order (genericSessionInfo.go:96). -/
def genericInfo (order : Heap → Loc → List Key) (depth : Nat) (data : Val) : Info where
  fields h := match data with
    | .map l => order h l
    | _ => []
  value h k := value order depth h data k

/-- sessionInfoToVarMap.go:6-15 `SessionInfoToVarMap`. -/
def varMap (info : Option Info) (h : Heap) : Go (Heap × Val) :=
  match info with
  | none => .ok (h, .nilMap)
  | some i => do
    let r := h.alloc (.dict [])
    let h' ← (i.fields h).foldlM (fun h k => do
      let x ← i.value h k
      return setKey x.1 r.2 k x.2) r.1
    return (h', .map r.2)

end Webwire.Copying
