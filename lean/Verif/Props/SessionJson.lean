import Verif.Proofs.SessionFile
import Verif.Props.SessionKey

/-!
# Properties C85 and C86: what is saved of sessions and what clients are told about them
-/

set_option autoImplicit false

namespace Webwire.Json
open Spec

variable {F : Type} {lib : Lib F}

/-! ## C85 -/

/-- C85, in full: what the default session manager has saved is found by every later lookup, with the creation time of the
session, the time of the lookup before and the information of the session. -/
def C85_full (lib : Lib F) : Prop :=
  ∀ (s : Session F) (file : Doc F), GoInfo lib s.info → onSessionCreated lib s = some file →
    ∀ nows : List Int, (∀ t ∈ nows, lib.timeOk t = true) →
      ∃ rs, LookedUp lib file rs ∧ rs.map (·.1) = nows ∧ rs.map (·.2.lastLookup) = (s.lastLookup :: nows).take nows.length ∧
        ∀ r ∈ rs, r.2.creation = s.creation ∧ Same (asVal r.2.info) (infoVal s.info)

/-- C85: information that JSON can express is saved and found by every later lookup. Missing: other information, for which it
is false. -/
theorem C85_native_partial (hl : Lawful lib) (s : Session F) (hg : GoInfo lib s.info)
    (hn : ∀ i, s.info = some i → ∀ f ∈ i.fields, Text f ∧ Native lib (i.value f)) (hc : lib.timeOk s.creation = true)
    (hll : lib.timeOk s.lastLookup = true) :
    ∃ file, onSessionCreated lib s = some file ∧ ∀ nows : List Int, (∀ t ∈ nows, lib.timeOk t = true) →
      ∃ rs, LookedUp lib file rs ∧ rs.map (·.1) = nows ∧ rs.map (·.2.lastLookup) = (s.lastLookup :: nows).take nows.length ∧
        ∀ r ∈ rs, r.2.creation = s.creation ∧ Same (asVal r.2.info) (infoVal s.info) := by
  have hN : NativeInfo lib (varMap s.info) := by
    intro m hm
    refine ⟨varMap_goVal hg m hm, ?_⟩
    cases hi : s.info with
    | none => rw [hi] at hm; cases hm
    | some i =>
      rw [hi] at hm
      obtain ⟨m', h1, _, _, h2⟩ := varMap_get i []
      rw [hm] at h1
      cases h1
      refine .map _ (fun k hk => ?_) fun e he => ?_
      · obtain ⟨e, he, rfl⟩ := List.mem_map.mp hk
        exact (hn i hi _ (h2 e he).1).1
      · rw [(h2 e he).2]
        exact (hn i hi _ (h2 e he).1).2
  obtain ⟨info', hcan⟩ := canon_exists hN
  obtain ⟨d, hd, _⟩ := canon_encodes hcan
  refine ⟨_, encodeFile_of hc hll hd, fun nows ht => ?_⟩
  obtain ⟨rs, h1, h2, h3, h4⟩ := lookups hl nows ht _ _ _ _ _ (encodeFile_of hc hll hd) hcan
    (canon_native hl (varMap_goVal hg) hcan)
  exact ⟨rs, h1, h2, h3, fun r hr => ⟨(h4 r hr).1, Same.trans (Same.trans (h4 r hr).2.1 (canon_same hN hcan)) (varMap_same _)⟩⟩

/-- C85: whatever the information, what has been saved is found by every later lookup, with the times as promised, and all
lookups find the same information. Missing: that it is the information that was saved, which is false. -/
theorem C85_lookups_partial (hl : Lawful lib) (s : Session F) (file : Doc F) (hg : GoInfo lib s.info)
    (hf : onSessionCreated lib s = some file) (nows : List Int) (ht : ∀ t ∈ nows, lib.timeOk t = true) :
    ∃ rs, LookedUp lib file rs ∧ rs.map (·.1) = nows ∧ rs.map (·.2.lastLookup) = (s.lastLookup :: nows).take nows.length ∧
      (∀ r ∈ rs, r.2.creation = s.creation) ∧ ∀ r ∈ rs, ∀ r' ∈ rs, Same (asVal r.2.info) (asVal r'.2.info) := by
  obtain ⟨info', hcan⟩ := onSessionCreated_ok hf
  obtain ⟨rs, h1, h2, h3, h4⟩ := lookups hl nows ht _ _ _ _ _ hf hcan (canon_native hl (varMap_goVal hg) hcan)
  exact ⟨rs, h1, h2, h3, fun r hr => (h4 r hr).1, fun r hr r' hr' => Same.trans (h4 r hr).2.1 (Same.symm (h4 r' hr').2.1)⟩

/-- What `SessionInfo` returns on a connection that has restored the session. -/
theorem restored_field (hl : Lawful lib) (s : Session F) (i : Info F) (hi : s.info = some i) (hg : GoInfo lib s.info)
    (ht : ∀ f ∈ i.fields, Text f) (file : Doc F) (hf : onSessionCreated lib s = some file)
    (rs : List (Int × Lookup F)) (hrs : LookedUp lib file rs) (r : Int × Lookup F) (hr : r ∈ rs) (s' : Session F)
    (reply : Doc F) (hre : restored lib (fun m => generic (some m)) s.key r.2 = some (s', reply)) :
    s'.key = s.key ∧ s'.creation = s.creation ∧ (∀ name ∉ i.fields, sessionInfo s' name = .null) ∧
      ∀ name ∈ i.fields, ∃ d, encode lib (i.value name) = some d ∧ Same (sessionInfo s' name) (decode lib d) := by
  obtain ⟨info', hcan⟩ := onSessionCreated_ok hf
  have hN := canon_native hl (varMap_goVal hg) hcan
  obtain ⟨_, h4⟩ := lookedUp_all hl hf hcan hN hrs
  obtain ⟨h5, h6, _⟩ := h4 r hr
  simp only [restored, bind, Option.bind_eq_some_iff, pure, Option.some.injEq, Prod.mk.injEq] at hre
  obtain ⟨_, _, rfl, _⟩ := hre
  refine ⟨rfl, h5, ?_⟩
  obtain ⟨m, hm, hw, _, hmem⟩ := varMap_get i []
  have hmk : ∀ k ∈ m.keys, Text k := by
    intro k hk
    obtain ⟨e, he, rfl⟩ := List.mem_map.mp hk
    exact ht _ (hmem e he).1
  rw [hi, hm] at hcan
  cases hcan with
  | some _ es he =>
  cases hri : r.2.info with
  | none =>
    rw [hri] at h6
    have := h6 []
    simp [asVal, look, kind] at this
  | some m' =>
    rw [hri] at h6
    have h6 := same_map.mp h6
    have hval : ∀ name, sessionInfo (⟨s.key, r.2.creation, r.2.lastLookup,
        (some m').map fun m => generic (some m)⟩ : Session F) name = (m'.get name).getD .null := fun _ => rfl
    have hget : ∀ name, m.get name = if name ∈ i.fields then some (i.value name) else none := by
      intro name
      obtain ⟨m2, h7, _, h8, _⟩ := varMap_get i name
      rw [hm] at h7
      cases h7
      exact h8
    refine ⟨fun name hname => ?_, fun name hname => ?_⟩
    · rw [hval]
      rcases h6 name with ⟨h7, _⟩ | ⟨v, w, _, h8, _⟩
      · rw [h7]; rfl
      · rw [map_get hw hmk he, hget, if_neg hname] at h8
        cases h8
    · rw [hval]
      have hd : ∃ d, encode lib (i.value name) = some d := by
        have : (name, i.value name) ∈ m := by
          rw [← get_some_iff hw, hget, if_pos hname]
        obtain ⟨f, _, _, h⟩ := forall₂_left (encodeMap_ok.mp he) _ this
        exact ⟨_, h⟩
      obtain ⟨d, hd⟩ := hd
      refine ⟨d, hd, ?_⟩
      rcases h6 name with ⟨_, h8⟩ | ⟨v, w, h7, h8, h9⟩
      · rw [map_get hw hmk he, hget, if_pos hname] at h8
        simp [hd] at h8
      · rw [map_get hw hmk he, hget, if_pos hname] at h8
        simp only [Option.bind_some, hd, Option.map_some, Option.some.injEq] at h8
        subst h8
        rw [h7]
        exact h9

theorem sessionInfo_eq {s : Session F} {i : Info F} (hi : s.info = some i) (name : Bytes) :
    sessionInfo s name = i.value name := by
  simp [sessionInfo, hi]

/-- C85: what `SessionInfo` returns on a connection that has restored the session, for information whose fields have texts
as names. A value is what it was when the session was created if and only if JSON can express it. Missing: the other values,
for which C85 is false. -/
theorem C85_field_partial (hl : Lawful lib) (s : Session F) (i : Info F) (hi : s.info = some i) (hg : GoInfo lib s.info)
    (ht : ∀ f ∈ i.fields, Text f) (file : Doc F) (hf : onSessionCreated lib s = some file)
    (rs : List (Int × Lookup F)) (hrs : LookedUp lib file rs) (r : Int × Lookup F) (hr : r ∈ rs) (s' : Session F)
    (reply : Doc F) (hre : restored lib (fun m => generic (some m)) s.key r.2 = some (s', reply)) :
    s'.key = s.key ∧ s'.creation = s.creation ∧ (∀ name ∉ i.fields, sessionInfo s' name = .null) ∧
      ∀ name ∈ i.fields, sessionInfo s name = i.value name ∧
        (Same (sessionInfo s' name) (i.value name) ↔ Native lib (i.value name)) := by
  obtain ⟨h1, h2, h3, h4⟩ := restored_field hl s i hi hg ht file hf rs hrs r hr s' reply hre
  refine ⟨h1, h2, h3, fun name hname => ?_⟩
  obtain ⟨d, hd, hs⟩ := h4 name hname
  refine ⟨sessionInfo_eq hi name, ?_⟩
  have hgv := hg i hi name hname
  constructor
  · intro h
    exact survivor_native _ hgv d hd (Same.trans (Same.symm hs) h)
  · intro h
    obtain ⟨d', hd', hs'⟩ := native_survives _ hgv h
    rw [hd] at hd'
    cases hd'
    exact Same.trans hs hs'

/-- C85: integers come back as float64s. -/
theorem C85_integers (hl : Lawful lib) (s : Session F) (i : Info F) (hi : s.info = some i) (hg : GoInfo lib s.info)
    (ht : ∀ f ∈ i.fields, Text f) (file : Doc F) (hf : onSessionCreated lib s = some file)
    (rs : List (Int × Lookup F)) (hrs : LookedUp lib file rs) (r : Int × Lookup F) (hr : r ∈ rs) (s' : Session F)
    (reply : Doc F) (hre : restored lib (fun m => generic (some m)) s.key r.2 = some (s', reply)) (name : Bytes) (n : Int)
    (hname : name ∈ i.fields) (hn : i.value name = .int n) : sessionInfo s' name = .float (lib.ofInt n) := by
  obtain ⟨_, _, _, h4⟩ := restored_field hl s i hi hg ht file hf rs hrs r hr s' reply hre
  obtain ⟨d, hd, hs⟩ := h4 name hname
  rw [hn, encode, Option.some.injEq] at hd
  subst hd
  have := hs []
  generalize sessionInfo s' name = v at this
  cases v <;> simp [decode, look, kind] at this ⊢
  exact this

/-- C85 is violated: an integer does not come back. -/
theorem C85_violated (lib : Lib F) (hl : Lawful lib) (t : Int) (ht : lib.timeOk t = true) : ¬ C85_full lib := by
  intro hfull
  let m : GoMap Bytes (Val F) := [([110], .int 1)]
  let s : Session F := ⟨[65], t, t, some (generic (some m))⟩
  have hv : varMap s.info = some m := rfl
  have hg : GoInfo lib s.info := by
    rintro i ⟨⟩ f hf
    have : f = [110] := by simpa [generic, GoMap.keys, m] using hf
    subst this
    exact .int 1 (by decide)
  have hm : encodeMap lib m = some [([110], .num (lib.ofInt 1))] := rfl
  have hd : encodeInfo lib (varMap s.info) = some (.obj (fieldsOf [([110], .num (lib.ofInt 1))])) := by
    rw [hv, encodeInfo, encode, hm]; rfl
  obtain ⟨rs, h1, h2, _, h3⟩ := hfull s _ hg (encodeFile_of ht ht hd) [t] (by simpa using ht)
  have hcan : Canon lib (varMap s.info) _ := .some m _ hm
  have hall := (lookedUp_all hl (encodeFile_of ht ht hd) hcan (canon_native hl (varMap_goVal hg) hcan) h1).2
  match rs, h2 with
  | r :: _, _ =>
    have hs := Same.trans (Same.symm (hall r List.mem_cons_self).2.1) (h3 r List.mem_cons_self).2
    have hn := survivor_native (.map m) (varMap_goVal hg m hv) _ (by rw [encode, hm]; rfl) (by rw [decode]; exact hs)
    cases hn with
    | map _ _ h => cases h _ List.mem_cons_self

/-! ### Cases -/

/-- A library for examples: numbers without a fractional part, all times are fine. -/
def exLib : Lib Int := ⟨id, fun _ => true, fun _ => true, fun _ => [116]⟩

theorem exLib_lawful : Lawful exLib := ⟨fun _ _ _ => rfl, fun _ => ⟨['t'], rfl⟩⟩

/-- A user with a name, tags and a number of visits. -/
def exInfo (visits : Val Int) : Option (Info Int) :=
  some (generic (some [([110], .str [65, 195, 164]), ([116], .slice [.bool true, .null]), ([118], visits)]))

def exSession (visits : Val Int) : Session Int := ⟨[75], 5, 5, exInfo visits⟩

theorem exInfo_go (visits : Val Int) (h : GoVal exLib visits) : GoInfo exLib (exInfo visits) := by
  rintro i ⟨⟩ f hf
  have : f = [110] ∨ f = [116] ∨ f = [118] := by simpa [generic, GoMap.keys] using hf
  rcases this with rfl | rfl | rfl
  · exact .str _
  · refine .slice _ fun v hv => ?_
    rcases List.mem_cons.mp hv with rfl | hv
    · exact .bool _
    · rw [List.mem_singleton.mp hv]; exact .null
  · exact h

theorem exInfo_text (visits : Val Int) : ∀ i, exInfo visits = some i → ∀ f ∈ i.fields, Text f := by
  rintro i ⟨⟩ f hf
  have : f = [110] ∨ f = [116] ∨ f = [118] := by simpa [generic, GoMap.keys] using hf
  rcases this with rfl | rfl | rfl
  · exact ⟨['n'], by decide⟩
  · exact ⟨['t'], by decide⟩
  · exact ⟨['v'], by decide⟩

theorem exInfo_native (visits : Val Int) (h : Native exLib visits) :
    ∀ i, exInfo visits = some i → ∀ f ∈ i.fields, Text f ∧ Native exLib (i.value f) := by
  intro i hi f hf
  refine ⟨exInfo_text visits i hi f hf, ?_⟩
  cases hi
  have : f = [110] ∨ f = [116] ∨ f = [118] := by simpa [generic, GoMap.keys] using hf
  rcases this with rfl | rfl | rfl
  · exact .str _ ⟨['A', 'ä'], by decide⟩
  · refine .slice _ fun v hv => ?_
    rcases List.mem_cons.mp hv with rfl | hv
    · exact .bool _
    · rw [List.mem_singleton.mp hv]; exact .null
  · exact h

/-- The hypotheses of `C85_native_partial` can be met: three lookups of a session with float64s. -/
example : ∃ file rs, onSessionCreated exLib (exSession (.float 3)) = some file ∧ LookedUp exLib file rs ∧
    rs.map (·.1) = [7, 8, 9] ∧ rs.map (·.2.lastLookup) = [5, 7, 8] := by
  obtain ⟨file, h1, h2⟩ := C85_native_partial exLib_lawful (exSession (.float 3)) (exInfo_go _ (.float 3))
    (exInfo_native _ (.float 3 rfl)) rfl rfl
  obtain ⟨rs, h3, h4, h5, _⟩ := h2 [7, 8, 9] fun _ _ => rfl
  exact ⟨file, rs, h1, h3, h4, h5⟩

/-! ## C86 -/

/-- C86, in full: from what it is sent when its session is created, the client reads the session's key, times and
information. -/
def C86_full (lib : Lib F) : Prop :=
  ∀ (s : Session F) (d : Doc F), GoInfo lib s.info → notification lib s = some d →
    ∃ js, decodeSession lib d = some js ∧ js.key = s.key ∧ js.creation = s.creation ∧ js.lastLookup = s.lastLookup ∧
      Same (asVal js.info) (infoVal s.info)

/-- C86: the times are read, and the key if and only if it is a text. Missing: other keys, for which C86 is false. -/
theorem C86_key_partial (s : Session F) (d : Doc F) (hd : notification lib s = some d) :
    ∃ js, decodeSession lib d = some js ∧ (js.key = s.key ↔ Text s.key) ∧ js.creation = s.creation ∧
      js.lastLookup = s.lastLookup := by
  obtain ⟨_, _, seen, _, h⟩ := encodeSession_ok hd
  exact ⟨_, h, sanitize_iff _, rfl, rfl⟩

/-- C86: what the client is sent is an object with the fields "k", "c" and "l", and "i" if the session has information, in this
order; clients in other languages go by these names. -/
theorem C86_fields (s : Session F) (d : Doc F) (hd : notification lib s = some d) :
    ∃ i : List (Bytes × Doc F), d = .obj ([([107], .str (sanitize s.key)), ([99], .time s.creation), ([108], .time s.lastLookup)] ++ i) ∧
      (i = [] ∧ (varMap s.info = none ∨ varMap s.info = some []) ∨
        ∃ x m, i = [([105], x)] ∧ varMap s.info = some m ∧ m ≠ [] ∧ encode lib (.map m) = some x) := by
  simp only [notification, encodeSession, bind, Option.bind_eq_some_iff] at hd
  obtain ⟨cd, hc, ld, hl, h⟩ := hd
  obtain ⟨-, rfl⟩ := encodeTime_ok hc
  obtain ⟨-, rfl⟩ := encodeTime_ok hl
  generalize varMap s.info = info at h ⊢
  match info, h with
  | none, h =>
    simp only [pure, Option.some.injEq] at h
    exact ⟨[], by rw [← h]; rfl, .inl ⟨rfl, .inl rfl⟩⟩
  | some [], h =>
    simp only [pure, Option.some.injEq] at h
    exact ⟨[], by rw [← h]; rfl, .inl ⟨rfl, .inr rfl⟩⟩
  | some (e :: m), h =>
    simp only [Option.bind_eq_some_iff, pure, Option.some.injEq] at h
    obtain ⟨x, hx, h⟩ := h
    exact ⟨[([105], x)], by rw [← h]; rfl, .inr ⟨x, e :: m, rfl, rfl, by simp, hx⟩⟩

/-- C85: the file of a session is an object with the fields "c", "l" and "i", in this order, so that later versions of the server
can read it. -/
theorem C85_fields (s : Session F) (file : Doc F) (hf : onSessionCreated lib s = some file) :
    ∃ i : Doc F, file = .obj [([99], .time s.creation), ([108], .time s.lastLookup), ([105], i)] ∧
      (i = .null ↔ varMap s.info = none) := by
  obtain ⟨-, -, i, hi, rfl⟩ := encodeFile_ok hf
  refine ⟨i, rfl, ?_⟩
  simp only at hi
  cases hv : varMap s.info with
  | none =>
    rw [hv] at hi
    simp only [encodeInfo, encode, Option.some.injEq] at hi
    simp [← hi]
  | some m =>
    rw [hv] at hi
    simp only [encodeInfo, encode] at hi
    simp only [reduceCtorEq, iff_false]
    rintro rfl
    simp [Option.map_eq_some_iff] at hi

/-- A session without information, and one with. -/
example : (∃ d, notification exLib ⟨[65], 5, 5, none⟩ = some d) ∧ (∃ d, notification exLib (exSession (.float 3)) = some d) ∧
    ∃ file, onSessionCreated exLib (exSession (.float 3)) = some file :=
  ⟨⟨_, rfl⟩, ⟨_, rfl⟩, _, rfl⟩

/-- C86: the key is read if it is one of the default generator. -/
theorem C86_generated (read : Nat → Option Bytes) (x : Bytes) (hr : read 48 = some x) (hx : x.length = 48) (s : Session F)
    (hk : Key.generateSessionKey read = .ok s.key) (d : Doc F) (hd : notification lib s = some d) :
    ∃ js, decodeSession lib d = some js ∧ js.key = s.key := by
  obtain ⟨js, h1, h2, _⟩ := C86_key_partial s d hd
  refine ⟨js, h1, h2.mpr ?_⟩
  obtain ⟨key, hk', _, hs⟩ := Key.C44_key read x hr hx
  rw [hk] at hk'
  cases hk'
  have ascii : ∀ l : Bytes, (∀ c ∈ l, c.toNat < 128) → Text l := by
    intro l
    induction l with
    | nil => intro _; exact ⟨[], rfl⟩
    | cons a l ih =>
      intro h
      obtain ⟨cs, hcs⟩ := ih fun c hc => h c (List.mem_cons_of_mem _ hc)
      have ha := h a List.mem_cons_self
      obtain ⟨c, hc⟩ := char_of a.toNat (by omega)
      refine ⟨c :: cs, ?_⟩
      have e : utf8 (c :: cs) = String.utf8EncodeChar c ++ utf8 cs := rfl
      rw [e, encode_eq, hc, if_pos (by omega), ofNat_eq a _ rfl, hcs]
      rfl
  exact ascii _ fun c hc => by
    have := hs c hc
    simp only [Key.UrlSafe, le_nat, eq_nat, UInt8.reduceToNat] at this
    omega

/-- C86: information with fields is read as it is if and only if JSON can express it. Information without fields is read as
no information. Missing: other information, for which C86 is false. -/
theorem C86_info_partial (s : Session F) (hg : GoInfo lib s.info) (d : Doc F) (hd : notification lib s = some d) :
    ∃ js, decodeSession lib d = some js ∧ (s.info = none → js.info = none) ∧
      ∀ i, s.info = some i → (i.fields = [] → js.info = none) ∧ (i.fields ≠ [] →
        (Same (asVal js.info) (infoVal s.info) ↔ ∀ f ∈ i.fields, Text f ∧ Native lib (i.value f))) := by
  obtain ⟨_, _, seen, hseen, h⟩ := encodeSession_ok hd
  refine ⟨_, h, ?_, ?_⟩
  · intro hi
    rcases hseen with ⟨_, h1⟩ | ⟨h1, _⟩
    · exact h1
    · exact absurd (by simp [varMap, hi]) h1
  · intro i hi
    obtain ⟨m, hm, hw, _, hmem⟩ := varMap_get i []
    have hget : ∀ name, m.get name = if name ∈ i.fields then some (i.value name) else none := by
      intro name
      obtain ⟨m2, h7, _, h8, _⟩ := varMap_get i name
      rw [hm] at h7
      cases h7
      exact h8
    have hvm : varMap s.info = some m := by rw [hi, hm]
    have hgm := varMap_goVal hg m hvm
    have hsm : ∀ x, Same x (infoVal s.info) ↔ Same x (asVal (some m)) := fun x => by
      rw [← hvm]
      exact ⟨fun h => Same.trans h (Same.symm (varMap_same _)), fun h => Same.trans h (varMap_same _)⟩
    simp only [hsm] at hseen ⊢
    rw [hvm] at hseen
    constructor
    · intro he
      rcases hseen with ⟨_, h1⟩ | ⟨_, h1, _⟩
      · exact h1
      · refine absurd ?_ h1
        cases m with
        | nil => rfl
        | cons e m => have := (hmem e List.mem_cons_self).1; rw [he] at this; cases this
    · intro he
      have hne : m ≠ [] := by
        rintro rfl
        obtain ⟨f, hf⟩ := List.exists_mem_of_ne_nil _ he
        have := hget f
        rw [if_pos hf] at this
        cases this
      rcases hseen with ⟨h1, _⟩ | ⟨_, _, hcan⟩
      · rcases h1 with h1 | h1
        · cases h1
        · exact absurd (Option.some.inj h1) hne
      · have hiff : Same (asVal seen) (asVal (some m)) ↔ Native lib (.map m) := by
          constructor
          · intro hs
            cases hcan with
            | some _ es h5 => exact survivor_native _ hgm (.obj (fieldsOf es)) (by simp [encode, h5]) (by rw [decode]; exact hs)
          · intro hn
            exact canon_same (fun m' hm' => by cases hm'; exact ⟨hgm, hn⟩) hcan
        rw [hiff]
        constructor
        · intro hn f hf
          have hmf : (f, i.value f) ∈ m := by rw [← get_some_iff hw, hget, if_pos hf]
          cases hn with
          | map _ hk hv => exact ⟨hk _ (List.mem_map.mpr ⟨_, hmf, rfl⟩), hv _ hmf⟩
        · intro hn
          refine .map _ (fun k hk => ?_) fun e he => ?_
          · obtain ⟨e, he, rfl⟩ := List.mem_map.mp hk
            exact (hn _ (hmem e he).1).1
          · rw [(hmem e he).2]
            exact (hn _ (hmem e he).1).2

/-- C86 is violated: keys that are not texts are replaced. -/
theorem C86_violated (lib : Lib F) (t : Int) (ht : lib.timeOk t = true) : ¬ C86_full lib := by
  intro h
  obtain ⟨d, hd⟩ := encodeSession_of (k := [0xff]) ht ht (Canon.none (lib := lib))
  obtain ⟨js, h1, h2, _⟩ := h ⟨[0xff], t, t, none⟩ d (by intro i hi; cases hi) hd
  obtain ⟨_, _, seen, _, h3⟩ := encodeSession_ok hd
  rw [h1] at h3
  cases h3
  exact absurd (show sanitize [0xff] = [0xff] from h2) (by decide)

/-- C86: whatever the information, the client is told the same when it restores the session as when it was created, apart
from the time of the last lookup. -/
theorem C86_restored (hl : Lawful lib) (parser : GoMap Bytes (Val F) → Info F) (s : Session F) (hg : GoInfo lib s.info)
    (d : Doc F) (hd : notification lib s = some d) (file : Doc F) (hf : onSessionCreated lib s = some file)
    (rs : List (Int × Lookup F)) (hrs : LookedUp lib file rs) (r : Int × Lookup F) (hr : r ∈ rs) :
    ∃ js s' reply js', decodeSession lib d = some js ∧ restored lib parser s.key r.2 = some (s', reply) ∧
      decodeSession lib reply = some js' ∧ js'.key = js.key ∧ js'.creation = js.creation ∧
      js'.lastLookup = r.2.lastLookup ∧ Same (asVal js'.info) (asVal js.info) := by
  obtain ⟨_, _, seen, hseen, h⟩ := encodeSession_ok hd
  obtain ⟨hc, hll, _⟩ := encodeFile_ok hf
  obtain ⟨info', hcan⟩ := onSessionCreated_ok hf
  have hN := canon_native hl (varMap_goVal hg) hcan
  obtain ⟨hlast, hall⟩ := lookedUp_all hl hf hcan hN hrs
  obtain ⟨h1, h2, h3⟩ := hall r hr
  have ht : lib.timeOk r.2.lastLookup = true := by
    have : r.2.lastLookup ∈ rs.map (·.2.lastLookup) := List.mem_map.mpr ⟨r, hr, rfl⟩
    rw [hlast] at this
    rcases List.mem_cons.mp (List.mem_of_mem_take this) with h | h
    · rw [h]; exact hll
    · exact lookedUp_times hrs _ h
  obtain ⟨i2, hc2⟩ := canon_exists h3
  obtain ⟨reply, hreply⟩ := encodeSession_of (k := s.key) (c := r.2.creation) (by rw [h1]; exact hc) ht hc2
  obtain ⟨_, _, seen', hseen', h'⟩ := encodeSession_ok hreply
  refine ⟨_, _, reply, _, h, by simp only [restored, hreply, bind, Option.bind, pure]; rfl, h', rfl, h1, rfl, ?_⟩
  obtain ⟨e1, e2⟩ := same_empty h2
  have e3 := canon_empty hcan
  have e4 : info' = none ↔ varMap s.info = none := by
    generalize varMap s.info = x at hcan
    cases hcan <;> simp
  simp only at hseen hseen' ⊢
  rw [e4] at e1
  rw [e3] at e2
  rcases hseen with ⟨h5, rfl⟩ | ⟨h5, h6, h7⟩
  · rcases hseen' with ⟨_, rfl⟩ | ⟨h8, h9, _⟩
    · exact Same.rfl
    · rcases h5 with h5 | h5
      · exact absurd (e1.mpr h5) h8
      · exact absurd (e2.mpr h5) h9
  · rcases hseen' with ⟨h8, _⟩ | ⟨_, _, h10⟩
    · rcases h8 with h8 | h8
      · exact absurd (e1.mp h8) h5
      · exact absurd (e2.mp h8) h6
    · have : seen = info' := by
        generalize varMap s.info = x at hcan h7
        cases h7 with
        | none => cases hcan; rfl
        | some m es h11 =>
          cases hcan with
          | some _ es' h12 => rw [h11] at h12; cases h12; rfl
      subst this
      exact Same.trans (canon_same h3 h10) h2

/-- The bytes of a text. -/
def utf8 (s : String) : Bytes := s.toUTF8.data.toList

/-- C86: whatever the client is written in, it finds the key under "k" and the times under "c" and "l", in this order, and
the information under "i" if there is any. -/
theorem C86_names (s : Session F) (d : Doc F) (hd : notification lib s = some d) :
    ∃ i, d = .obj ([(utf8 "k", .str (sanitize s.key)), (utf8 "c", .time s.creation), (utf8 "l", .time s.lastLookup)] ++ i) ∧
      ((varMap s.info = none ∨ varMap s.info = some []) ∧ i = [] ∨
        ∃ m e, varMap s.info = some m ∧ m ≠ [] ∧ encodeInfo lib (some m) = some e ∧ i = [(utf8 "i", e)]) := by
  simp only [notification, encodeSession, Option.bind_eq_bind, Option.bind_eq_some_iff] at hd
  obtain ⟨c, hc, l, hl, hd⟩ := hd
  simp only [encodeTime, Option.ite_none_right_eq_some, Option.some.injEq] at hc hl
  obtain ⟨-, rfl⟩ := hc
  obtain ⟨-, rfl⟩ := hl
  split at hd
  · rename_i h
    exact ⟨[], (Option.some.inj hd).symm, .inl ⟨.inl h, rfl⟩⟩
  · rename_i h
    exact ⟨[], (Option.some.inj hd).symm, .inl ⟨.inr h, rfl⟩⟩
  · rename_i m hne h
    obtain ⟨e, he, hd⟩ := Option.bind_eq_some_iff.mp hd
    exact ⟨_, (Option.some.inj hd).symm, .inr ⟨m, e, h, fun h0 => hne (by rw [h0]), he, rfl⟩⟩

/-- C86: if a client could be told of the session, the session can be saved. -/
theorem C86_saved (s : Session F) : (notification lib s).isSome ↔ (onSessionCreated lib s).isSome := by
  constructor
  · intro h
    obtain ⟨d, hd⟩ := Option.isSome_iff_exists.mp h
    obtain ⟨h1, h2, seen, hs, _⟩ := encodeSession_ok hd
    simp only at hs h1 h2
    have : ∃ x, Canon lib (varMap s.info) x := by
      rcases hs with ⟨h3 | h3, _⟩ | ⟨_, _, h3⟩
      · rw [h3]; exact ⟨_, .none⟩
      · rw [h3]; exact ⟨_, .some [] [] rfl⟩
      · exact ⟨_, h3⟩
    obtain ⟨x, hx⟩ := this
    obtain ⟨i, hi, _⟩ := canon_encodes hx
    rw [onSessionCreated, encodeFile_of h1 h2 hi]
    rfl
  · intro h
    obtain ⟨d, hd⟩ := Option.isSome_iff_exists.mp h
    obtain ⟨h1, h2, i, hi, _⟩ := encodeFile_ok hd
    obtain ⟨x, hx, _⟩ := encodeInfo_ok hi
    obtain ⟨d', hd'⟩ := encodeSession_of (k := s.key) h1 h2 hx
    rw [notification, hd']
    rfl

/-! ### Cases -/

/-- The hypotheses of `C85_field_partial`, `C85_integers`, `C85_lookups_partial` and `C86_restored` can be met: the number of
visits was the integer 3 and is the float64 3 after the second restoration; the name is the same. -/
example : ∃ file rs r s' reply, onSessionCreated exLib (exSession (.int 3)) = some file ∧ LookedUp exLib file rs ∧
    rs.map (·.1) = [7, 8] ∧ r ∈ rs ∧ r.1 = 8 ∧
    restored exLib (fun m => generic (some m)) [75] r.2 = some (s', reply) ∧
    sessionInfo (exSession (.int 3)) [118] = .int 3 ∧ sessionInfo s' [118] = .float 3 ∧
    Same (sessionInfo s' [110]) (.str [65, 195, 164]) := by
  have hg : GoInfo exLib (exSession (.int 3)).info := exInfo_go _ (.int 3 (by decide))
  have hm : ∃ es, encodeMap exLib
      [([118], .int 3), ([116], .slice [.bool true, .null]), ([110], .str [65, 195, 164])] = some es := ⟨_, rfl⟩
  obtain ⟨es, hm⟩ := hm
  have hd : encodeInfo exLib (varMap (exSession (.int 3)).info) = some (.obj (fieldsOf es)) := by
    rw [show varMap (exSession (.int 3)).info =
      some [([118], .int 3), ([116], .slice [.bool true, .null]), ([110], .str [65, 195, 164])] from rfl,
      encodeInfo, encode, hm]
    rfl
  have hf : onSessionCreated exLib (exSession (.int 3)) = some _ := encodeFile_of rfl rfl hd
  obtain ⟨d, hn⟩ := Option.isSome_iff_exists.mp ((C86_saved (lib := exLib) (exSession (.int 3))).mpr (by rw [hf]; rfl))
  obtain ⟨rs, h1, h2, _⟩ := C85_lookups_partial exLib_lawful _ _ hg hf [7, 8] fun _ _ => rfl
  have hrs : ∃ r1 r2, rs = [r1, r2] := by
    have := congrArg List.length h2
    rw [List.length_map] at this
    exact List.length_eq_two.mp this
  obtain ⟨r1, r2, rfl⟩ := hrs
  obtain ⟨_, s', reply, _, _, h3, _⟩ := C86_restored exLib_lawful (fun m => generic (some m)) _ hg d hn _ hf _ h1 r2
    (by simp)
  have ht := exInfo_text (.int 3) _ rfl
  refine ⟨_, _, r2, s', reply, hf, h1, h2, by simp, by simpa using (by simpa using h2 : r1.1 = 7 ∧ r2.1 = 8).2, h3, rfl,
    ?_, ?_⟩
  · exact C85_integers exLib_lawful _ _ rfl hg ht _ hf _ h1 r2 (by simp) s' reply h3 [118] 3
      (by simp [generic, GoMap.keys]) rfl
  · refine ((C85_field_partial exLib_lawful _ _ rfl hg ht _ hf _ h1 r2 (by simp) s' reply h3).2.2.2 [110]
      (by simp [generic, GoMap.keys])).2.mpr ?_
    exact .str _ ⟨['A', 'ä'], by decide⟩

/-- The hypotheses of `C86_key_partial`, `C86_info_partial` can be met, and a key that is not a text does not arrive. -/
example : ∃ d js, notification exLib ⟨[75, 0xff], 5, 5, none⟩ = some d ∧ decodeSession exLib d = some js ∧
    js.key = [75, 0xef, 0xbf, 0xbd] := ⟨_, _, rfl, rfl, rfl⟩

/-- The hypotheses of `C86_generated` can be met. -/
example : ∃ key d, Key.generateSessionKey (fun n => some (List.replicate n 0)) = .ok key ∧
    notification exLib ⟨key, 5, 5, none⟩ = some d := ⟨_, _, rfl, rfl⟩

end Webwire.Json
