import Verif.Model.DeepCopy

/-!
# What can be seen of a value, and who can change it
-/

set_option autoImplicit false

namespace Webwire.Copying

/-- Ways from a value to a part of it. -/
inductive Sel
  /-- the value of an interface -/
  | dyn
  /-- an element of a slice -/
  | elem (i : Nat)
  /-- the value of a key -/
  | key (k : Key)
  /-- what a pointer points to -/
  | deref
  /-- the first field, and the others -/
  | first | rest
  deriving DecidableEq, Repr

/-- The part of a value. -/
def Val.sel (h : Heap) : Val → Sel → Option Val
  | .inter v, .dyn => some v
  | .slice l off len _, .elem i => if i < len then some (h.elem l (off + i)) else none
  | .map l, .key k => (h.entries l).get k
  | .ptr l, .deref =>
    match h.objs l with
    | .cell v => some v
    | _ => none
  | .fields a _, .first => some a
  | .fields _ b, .rest => some b
  | _, _ => none

/-- What can be seen of a value without looking at its parts. -/
inductive Obs
  | scalar (n : Nat) | nilInter | inter | nilSlice | slice (len cap : Nat) | nilMap | map | nilPtr | ptr | fields
  deriving DecidableEq, Repr

def Val.obs : Val → Obs
  | .scalar n => .scalar n
  | .nilInter => .nilInter
  | .inter _ => .inter
  | .nilSlice => .nilSlice
  | .slice _ _ len cap => .slice len cap
  | .nilMap => .nilMap
  | .map _ => .map
  | .nilPtr => .nilPtr
  | .ptr _ => .ptr
  | .fields _ _ => .fields

/-- The part of a value at the end of a path. -/
def walk (h : Heap) (v : Val) : List Sel → Option Val
  | [] => some v
  | s :: p => (v.sel h s).bind fun w => walk h w p

/-- What is seen at the end of a path; nothing if there is no such path. -/
def look (h : Heap) (v : Val) (p : List Sel) : Option Obs := (walk h v p).map Val.obs

/-- Two values, each in its memory, are deeply equal: nobody looking at them can tell them apart. -/
def Same (h h' : Heap) (v v' : Val) : Prop := ∀ p, look h' v' p = look h v p

/-- The addresses in a value. -/
def Val.locs : Val → List Loc
  | .inter v => v.locs
  | .slice l _ _ _ | .map l | .ptr l => [l]
  | .fields a b => a.locs ++ b.locs
  | _ => []

/-- The addresses in an object. -/
def Obj.locs : Obj → List Loc
  | .arr vs => vs.flatMap Val.locs
  | .dict m => m.flatMap fun e => e.2.locs
  | .cell v => v.locs

/-- The addresses of objects that can be reached from a value. -/
inductive Reach (h : Heap) (v : Val) : Loc → Prop
  | here (l : Loc) : l ∈ v.locs → Reach h v l
  | there (l l' : Loc) : Reach h v l → l' ∈ (h.objs l).locs → Reach h v l'

/-- A value of a running program: it refers to memory in use only, and its slices are no longer than their capacity. -/
structure Valid (h : Heap) (v : Val) : Prop where
  used : ∀ l, Reach h v l → l < h.next
  slices : ∀ p l off len cap, walk h v p = some (.slice l off len cap) → len ≤ cap

/-- The keys of a map in any order. -/
def Lists (order : Heap → Loc → List Key) : Prop := ∀ h l, (order h l).Perm (h.entries l).keys

/-- A part that is copied as it is refers to nothing: no pointers but nil, no structs and arrays with maps, slices, pointers. -/
def Deep (h : Heap) (v : Val) : Prop := ∀ p w, walk h v p = some w →
  match w with
  | .ptr _ => False
  | .fields a b => a.locs = [] ∧ b.locs = []
  | _ => True

/-- The nil interface and NaN are not among the keys. -/
def Keyed (h : Heap) (v : Val) : Prop := ∀ p l, walk h v p = some (.map l) →
  ∀ k ∈ (h.entries l).keys, k ≠ .nilInterface ∧ k ≠ .nan

/-- Part of an interface, slice or map. -/
def Part (h : Heap) (w v : Val) : Prop := v.sel h .dyn = some w ∨ (∃ i, v.sel h (.elem i) = some w) ∨ ∃ k, v.sel h (.key k) = some w

/-- The value does not contain itself by way of interfaces, slices and maps. -/
def NoLoop (h : Heap) (v : Val) : Prop := Acc (Part h) v

/-! ## Programs -/

/-- The addresses in the values a program has. -/
def has (held : List Val) (l : Loc) : Prop := ∃ v ∈ held, l ∈ v.locs

/-- What a program having some values can do: take parts, put values together, assign to objects it has the address of,
and make new ones. -/
inductive Does : Heap × List Val → Heap × List Val → Prop
  | take (h : Heap) (held : List Val) (v w : Val) (s : Sel) : v ∈ held → v.sel h s = some w → Does (h, held) (h, w :: held)
  | make (h : Heap) (held : List Val) (w : Val) : (∀ l ∈ w.locs, has held l) → Does (h, held) (h, w :: held)
  | write (h : Heap) (held : List Val) (l : Loc) (o : Obj) : has held l → (∀ l' ∈ o.locs, has held l') →
      Does (h, held) (h.put l o, held)
  | alloc (h : Heap) (held : List Val) (w : Val) (o : Obj) : (∀ l' ∈ o.locs, has held l') → w.locs = [h.next] →
      Does (h, held) ((h.alloc o).1, w :: held)

/-- What it can do in any number of steps. -/
inductive DoesAll (x : Heap × List Val) : Heap × List Val → Prop
  | start : DoesAll x x
  | step (y z : Heap × List Val) : DoesAll x y → Does y z → DoesAll x z

/-- Whatever a program does that was given `v` (and nothing else), `w` looks the same as before. -/
def Isolated (h : Heap) (v w : Val) : Prop := ∀ h' held', DoesAll (h, [v]) (h', held') → Same h h' w w

/-! ## What is promised -/

/-- What is handed out for a stored value: something deeply equal, the stored value is as before, whoever has the copy
cannot change what is stored, and whoever has what is stored cannot change the copy. -/
structure HandedOut (h h' : Heap) (stored copy : Val) : Prop where
  equal : Same h h' stored copy
  kept : Same h h' stored stored
  out : Isolated h' copy stored
  back : Isolated h' stored copy

/-- The map of the generic session information. -/
def Val.isMap : Val → Prop
  | .map _ | .nilMap => True
  | _ => False

/-- The session handed out has the key and the times of the stored one, and information exactly if that has. -/
def SessionOut (info : Val → Val → Prop) (s : Session) (s' : Session) : Prop :=
  s'.key = s.key ∧ s'.creation = s.creation ∧ s'.lastLookup = s.lastLookup ∧
    match s.info, s'.info with
    | none, none => True
    | some data, some data' => info data data'
    | _, _ => False

end Webwire.Copying
