import Verif.Proofs.Json

/-!
# Session files and the session objects clients receive
-/

set_option autoImplicit false

namespace Webwire.Json
open Spec

variable {F : Type} {lib : Lib F}

/-! ## Files -/

/-- What becomes of session information that is written and read again. -/
inductive Canon (lib : Lib F) : Option (GoMap Bytes (Val F)) → Option (GoMap Bytes (Val F)) → Prop
  | none : Canon lib none none
  | some (m : GoMap Bytes (Val F)) (es : List (Bytes × Doc F)) (h : encodeMap lib m = some es) :
      Canon lib (some m) (some (toMap (decodeFields lib (fieldsOf es))))

theorem encodeInfo_ok {info : Option (GoMap Bytes (Val F))} {d : Doc F} (h : encodeInfo lib info = some d) :
    ∃ info', Canon lib info info' ∧ decodeInfo lib (some d) = some info' := by
  cases info with
  | none =>
    simp only [encodeInfo, encode, Option.some.injEq] at h
    subst h
    exact ⟨_, .none, rfl⟩
  | some m =>
    simp only [encodeInfo, encode] at h
    obtain ⟨es, h1, rfl⟩ := Option.map_eq_some_iff.mp h
    exact ⟨_, .some m es h1, rfl⟩

theorem canon_encodes {info info' : Option (GoMap Bytes (Val F))} (h : Canon lib info info') :
    ∃ d, encodeInfo lib info = some d ∧ decodeInfo lib (some d) = some info' := by
  cases h with
  | none => exact ⟨.null, rfl, rfl⟩
  | some m es h => exact ⟨.obj (fieldsOf es), by simp [encodeInfo, encode, h], rfl⟩

theorem encodeTime_ok {t : Int} {d : Doc F} (h : encodeTime lib t = some d) : lib.timeOk t = true ∧ d = .time t := by
  simp only [encodeTime] at h
  split_ifs at h with ht
  exact ⟨ht, (Option.some.inj h).symm⟩

theorem encodeFile_ok {f : SessionFile F} {d : Doc F} (h : encodeFile lib f = some d) :
    lib.timeOk f.creation = true ∧ lib.timeOk f.lastLookup = true ∧ ∃ i, encodeInfo lib f.info = some i ∧
      d = .obj [(nameC, .time f.creation), (nameL, .time f.lastLookup), (nameI, i)] := by
  simp only [encodeFile, bind, Option.bind_eq_some_iff] at h
  obtain ⟨c, hc, l, hl, i, hi, h⟩ := h
  obtain ⟨h1, rfl⟩ := encodeTime_ok hc
  obtain ⟨h2, rfl⟩ := encodeTime_ok hl
  exact ⟨h1, h2, i, hi, (Option.some.inj h).symm⟩

theorem encodeFile_of {c l : Int} {info : Option (GoMap Bytes (Val F))} {i : Doc F} (hc : lib.timeOk c = true)
    (hl : lib.timeOk l = true) (hi : encodeInfo lib info = some i) :
    encodeFile lib ⟨c, l, info⟩ = some (.obj [(nameC, .time c), (nameL, .time l), (nameI, i)]) := by
  simp [encodeFile, encodeTime, hc, hl, hi]

theorem decodeFile_of {c l : Int} {info : Option (GoMap Bytes (Val F))} {i : Doc F}
    (hi : decodeInfo lib (some i) = some info) :
    decodeFile lib (.obj [(nameC, .time c), (nameL, .time l), (nameI, i)]) = some ⟨c, l, info⟩ := by
  have e1 : (nameL == nameC) = false := rfl
  have e2 : (nameI == nameC) = false := rfl
  have e3 : (nameI == nameL) = false := rfl
  simp [decodeFile, List.lookup, e1, e2, e3, decodeTime, hi]

/-- Information that can be expressed, if there is any. -/
def NativeInfo (lib : Lib F) (info : Option (GoMap Bytes (Val F))) : Prop :=
  ∀ m, info = some m → GoVal lib (.map m) ∧ Native lib (.map m)

theorem canon_native (hl : Lawful lib) {info info' : Option (GoMap Bytes (Val F))}
    (hg : ∀ m, info = some m → GoVal lib (.map m)) (h : Canon lib info info') : NativeInfo lib info' := by
  cases h with
  | none => intro m hm; cases hm
  | some m es h =>
    intro m' hm
    cases hm
    have := decode_native hl _ (encode_valid hl (.map m) (hg m rfl) (.obj (fieldsOf es)) (by simp [encode, h]))
    rwa [decode] at this

theorem canon_exists {info : Option (GoMap Bytes (Val F))} (h : NativeInfo lib info) :
    ∃ info', Canon lib info info' := by
  cases info with
  | none => exact ⟨_, .none⟩
  | some m =>
    obtain ⟨d, hd, _⟩ := native_survives _ (h m rfl).1 (h m rfl).2
    rw [encode] at hd
    obtain ⟨es, h1, _⟩ := Option.map_eq_some_iff.mp hd
    exact ⟨_, .some m es h1⟩

theorem canon_same {info info' : Option (GoMap Bytes (Val F))} (hn : NativeInfo lib info) (h : Canon lib info info') :
    Same (asVal info') (asVal info) := by
  cases h with
  | none => exact Same.rfl
  | some m es h =>
    obtain ⟨d, hd, hs⟩ := native_survives _ (hn m rfl).1 (hn m rfl).2
    simp only [encode, h, Option.map_some, Option.some.injEq] at hd
    subst hd
    rwa [decode] at hs

/-- One lookup. -/
theorem lookup_step {c l now : Int} {info info' : Option (GoMap Bytes (Val F))} {file : Doc F}
    (hf : encodeFile lib ⟨c, l, info⟩ = some file) (hc : Canon lib info info') (hn : NativeInfo lib info')
    (ht : lib.timeOk now = true) :
    ∃ file', encodeFile lib ⟨c, now, info'⟩ = some file' ∧ onSessionLookup lib now file = some (⟨c, l, info'⟩, file') := by
  obtain ⟨h1, h2, i, hi, rfl⟩ := encodeFile_ok hf
  obtain ⟨i', hi', hd⟩ := canon_encodes hc
  rw [hi] at hi'
  cases hi'
  obtain ⟨info'', h3⟩ := canon_exists hn
  obtain ⟨j, hj, _⟩ := canon_encodes h3
  have hf := encodeFile_of h1 ht hj
  refine ⟨_, hf, ?_⟩
  simp only [onSessionLookup, decodeFile_of hd, hf, bind, Option.bind, pure]

theorem lookups (hl : Lawful lib) (nows : List Int) (ht : ∀ t ∈ nows, lib.timeOk t = true) :
    ∀ (c l : Int) (info info' : Option (GoMap Bytes (Val F))) (file : Doc F),
    encodeFile lib ⟨c, l, info⟩ = some file → Canon lib info info' → NativeInfo lib info' →
    ∃ rs, LookedUp lib file rs ∧ rs.map (·.1) = nows ∧ rs.map (·.2.lastLookup) = (l :: nows).take nows.length ∧
      ∀ r ∈ rs, r.2.creation = c ∧ Same (asVal r.2.info) (asVal info') ∧ NativeInfo lib r.2.info := by
  induction nows with
  | nil => intro c l info info' file _ _ _; exact ⟨[], .none _, rfl, rfl, by simp⟩
  | cons now nows ih =>
    intro c l info info' file hf hc hn
    obtain ⟨file', hf', hlk⟩ := lookup_step hf hc hn (ht now List.mem_cons_self)
    obtain ⟨info'', hc'⟩ := canon_exists hn
    have hg : ∀ m, info' = some m → GoVal lib (.map m) := fun m hm => (hn m hm).1
    obtain ⟨rs, h1, h2, h3, h4⟩ := ih (fun t h => ht t (List.mem_cons_of_mem _ h)) c now info' info'' file' hf' hc'
      (canon_native hl hg hc')
    refine ⟨_, .next _ _ now _ rs hlk h1, by rw [List.map_cons, h2], by simp [h3], ?_⟩
    intro r hr
    rcases List.mem_cons.mp hr with rfl | hr
    · exact ⟨rfl, Same.rfl, hn⟩
    · exact ⟨(h4 r hr).1, Same.trans (h4 r hr).2.1 (canon_same hn hc'), (h4 r hr).2.2⟩

/-! ## The map of an information object -/

theorem varMap_get (i : Info F) (name : Bytes) : ∃ m, varMap (some i) = some m ∧ m.WF ∧
    (m.get name = if name ∈ i.fields then some (i.value name) else none) ∧ ∀ e ∈ m, e.1 ∈ i.fields ∧ e.2 = i.value e.1 := by
  refine ⟨_, rfl, ?_⟩
  have key : ∀ (fs : List Bytes) (m : GoMap Bytes (Val F)), m.WF →
      (fs.foldl (fun m f => GoMap.set m f (i.value f)) m).WF ∧
      (fs.foldl (fun m f => GoMap.set m f (i.value f)) m).get name =
        (if name ∈ fs then some (i.value name) else m.get name) ∧
      ∀ e ∈ fs.foldl (fun m f => GoMap.set m f (i.value f)) m, e ∈ m ∨ (e.1 ∈ fs ∧ e.2 = i.value e.1) := by
    intro fs
    induction fs with
    | nil => intro m h; exact ⟨h, by simp, fun e he => .inl he⟩
    | cons f fs ih =>
      intro m h
      obtain ⟨h1, h2, h3⟩ := ih (GoMap.set m f (i.value f)) (GoMap.wf_set h _ _)
      refine ⟨h1, ?_, ?_⟩
      · rw [List.foldl_cons, h2, GoMap.get_set]
        by_cases hn : name ∈ fs
        · simp [hn]
        · by_cases hf : f = name
          · subst hf; simp
          · simp [hn, hf, Ne.symm hf]
      · intro e he
        rcases h3 e he with h4 | h4
        · rcases List.mem_cons.mp h4 with rfl | h4
          · exact .inr ⟨List.mem_cons_self, rfl⟩
          · exact .inl (List.mem_of_mem_filter h4)
        · exact .inr ⟨List.mem_cons_of_mem _ h4.1, h4.2⟩
  obtain ⟨h1, h2, h3⟩ := key i.fields [] GoMap.wf_nil
  refine ⟨h1, by rw [h2]; rfl, fun e he => ?_⟩
  rcases h3 e he with h | h
  · cases h
  · exact h

/-- `SessionInfoToVarMap` gives the fields with their values. -/
theorem varMap_same (info : Option (Info F)) : Same (asVal (varMap info)) (infoVal info) := by
  cases info with
  | none => exact fun p => rfl
  | some i =>
    have hl : ∀ (fs : List Bytes) (name : Bytes), GoMap.get (fs.map fun f => (f, i.value f)) name =
        if name ∈ fs then some (i.value name) else none := by
      intro fs name
      induction fs with
      | nil => rfl
      | cons f fs ih =>
        by_cases h : f = name
        · subst h; simp [GoMap.get]
        · simp [GoMap.get, h, Ne.symm h] at ih ⊢
          exact ih
    obtain ⟨m, hm, -⟩ := varMap_get i []
    rw [hm]
    refine same_map.mpr fun name => ?_
    obtain ⟨m2, h7, _, h8, _⟩ := varMap_get i name
    rw [hm] at h7
    cases h7
    rw [h8, hl]
    split
    · exact .inr ⟨_, _, rfl, rfl, fun p => rfl⟩
    · exact .inl ⟨rfl, rfl⟩

theorem varMap_goVal {info : Option (Info F)} (h : GoInfo lib info) (m : GoMap Bytes (Val F))
    (hm : varMap info = some m) : GoVal lib (.map m) := by
  cases info with
  | none => cases hm
  | some i =>
    obtain ⟨m', h1, h2, _, h3⟩ := varMap_get i []
    rw [hm] at h1
    cases h1
    refine .map _ h2 fun e he => ?_
    rw [(h3 e he).2]
    exact h i rfl _ (h3 e he).1

/-! ## More about lookups -/

theorem lookup_time {now : Int} {file file' : Doc F} {r : Lookup F}
    (h : onSessionLookup lib now file = some (r, file')) : lib.timeOk now = true := by
  simp only [onSessionLookup, bind, Option.bind_eq_some_iff] at h
  obtain ⟨f, _, d, hd, _⟩ := h
  exact (encodeFile_ok hd).2.1

theorem lookedUp_times {file : Doc F} {rs : List (Int × Lookup F)} (h : LookedUp lib file rs) :
    ∀ t ∈ rs.map (·.1), lib.timeOk t = true := by
  induction h with
  | none => intro t h; cases h
  | next file file' now r rs h _ ih =>
    intro t ht
    rcases List.mem_cons.mp ht with rfl | ht
    · exact lookup_time h
    · exact ih t ht

theorem lookedUp_unique {file : Doc F} {rs rs' : List (Int × Lookup F)} (h : LookedUp lib file rs)
    (h' : LookedUp lib file rs') (e : rs.map (·.1) = rs'.map (·.1)) : rs = rs' := by
  induction h generalizing rs' with
  | none =>
    cases h' with
    | none => rfl
    | next => simp at e
  | next file file' now r rs h _ ih =>
    cases h' with
    | none => simp at e
    | next _ file'' now' r' rs' h2 h3 =>
      simp only [List.map_cons, List.cons.injEq] at e
      obtain ⟨rfl, e⟩ := e
      rw [h] at h2
      simp only [Option.some.injEq, Prod.mk.injEq] at h2
      obtain ⟨rfl, rfl⟩ := h2
      rw [ih h3 e]

/-- What lookups find. -/
theorem lookedUp_all (hl : Lawful lib) {c l : Int} {info info' : Option (GoMap Bytes (Val F))} {file : Doc F}
    {rs : List (Int × Lookup F)} (hf : encodeFile lib ⟨c, l, info⟩ = some file) (hc : Canon lib info info')
    (hn : NativeInfo lib info') (h : LookedUp lib file rs) :
    rs.map (·.2.lastLookup) = (l :: rs.map (·.1)).take rs.length ∧
      ∀ r ∈ rs, r.2.creation = c ∧ Same (asVal r.2.info) (asVal info') ∧ NativeInfo lib r.2.info := by
  obtain ⟨rs', h1, h2, h3, h4⟩ := lookups hl (rs.map (·.1)) (lookedUp_times h) c l info info' file hf hc hn
  have := lookedUp_unique h h1 h2.symm
  subst this
  exact ⟨by rw [h3, List.length_map], h4⟩

theorem onSessionCreated_ok {s : Session F} {file : Doc F} (h : onSessionCreated lib s = some file) :
    ∃ info', Canon lib (varMap s.info) info' := by
  obtain ⟨_, _, i, hi, _⟩ := encodeFile_ok h
  obtain ⟨info', h, _⟩ := encodeInfo_ok hi
  exact ⟨info', h⟩

/-! ## Session objects for clients -/

/-- What clients see of session information. -/
def Seen (lib : Lib F) (info seen : Option (GoMap Bytes (Val F))) : Prop :=
  ((info = none ∨ info = some []) ∧ seen = none) ∨ (info ≠ none ∧ info ≠ some [] ∧ Canon lib info seen)

theorem encodeSession_ok {s : JSONEncodedSession F} {d : Doc F} (h : encodeSession lib s = some d) :
    lib.timeOk s.creation = true ∧ lib.timeOk s.lastLookup = true ∧ ∃ seen, Seen lib s.info seen ∧
      decodeSession lib d = some ⟨sanitize s.key, s.creation, s.lastLookup, seen⟩ := by
  obtain ⟨k, c, l, info⟩ := s
  have e1 : (nameC == nameK) = false := rfl
  have e2 : (nameL == nameK) = false := rfl
  have e3 : (nameL == nameC) = false := rfl
  have e4 : (nameI == nameK) = false := rfl
  have e5 : (nameI == nameC) = false := rfl
  have e6 : (nameI == nameL) = false := rfl
  simp only [encodeSession, bind, Option.bind_eq_some_iff] at h
  obtain ⟨cd, hc, ld, hl, h⟩ := h
  obtain ⟨h1, rfl⟩ := encodeTime_ok hc
  obtain ⟨h2, rfl⟩ := encodeTime_ok hl
  refine ⟨h1, h2, ?_⟩
  have short : decodeSession lib (.obj [(nameK, .str (sanitize k)), (nameC, .time c), (nameL, .time l)]) =
      some ⟨sanitize k, c, l, none⟩ := by
    simp [decodeSession, List.lookup, e1, e2, e3, e4, e5, e6, decodeTime, decodeStr, decodeInfo]
  match info, h with
  | none, h =>
    simp only [pure, Option.some.injEq] at h
    subst h
    exact ⟨none, .inl ⟨.inl rfl, rfl⟩, short⟩
  | some [], h =>
    simp only [pure, Option.some.injEq] at h
    subst h
    exact ⟨none, .inl ⟨.inr rfl, rfl⟩, short⟩
  | some (e :: m), h =>
    simp only [Option.bind_eq_some_iff] at h
    obtain ⟨i, hi, h⟩ := h
    simp only [pure, Option.some.injEq] at h
    subst h
    obtain ⟨info', hc, hd⟩ := encodeInfo_ok hi
    refine ⟨info', .inr ⟨by simp, by simp, hc⟩, ?_⟩
    simp [decodeSession, List.lookup, e1, e2, e3, e4, e5, e6, decodeTime, decodeStr, hd]

theorem encodeSession_of {k : Bytes} {c l : Int} {info info' : Option (GoMap Bytes (Val F))}
    (hc : lib.timeOk c = true) (hl : lib.timeOk l = true) (hi : Canon lib info info') :
    ∃ d, encodeSession lib ⟨k, c, l, info⟩ = some d := by
  obtain ⟨i, hi, _⟩ := canon_encodes hi
  match info, hi with
  | none, _ => exact ⟨_, by simp [encodeSession, encodeTime, hc, hl]; rfl⟩
  | some [], _ => exact ⟨_, by simp [encodeSession, encodeTime, hc, hl]; rfl⟩
  | some (e :: m), hi => exact ⟨_, by simp [encodeSession, encodeTime, hc, hl, hi]; rfl⟩

theorem toMap_ne_nil {es : List (Bytes × Val F)} (h : es ≠ []) : toMap es ≠ [] := by
  have key : ∀ (es : List (Bytes × Val F)) (m : GoMap Bytes (Val F)), m ≠ [] →
      es.foldl (fun m e => GoMap.set m e.1 e.2) m ≠ [] := by
    intro es
    induction es with
    | nil => intro m h; exact h
    | cons e es ih => intro m _; exact ih _ (by simp [GoMap.set])
  cases es with
  | nil => exact absurd rfl h
  | cons e es => exact key es _ (by simp [GoMap.set])

/-- Information with fields comes back with fields. -/
theorem canon_empty {info info' : Option (GoMap Bytes (Val F))} (h : Canon lib info info') :
    info' = some [] ↔ info = some [] := by
  cases h with
  | none => simp
  | some m es h =>
    simp only [Option.some.injEq]
    constructor
    · intro h1
      have h2 : fieldsOf es = [] := by
        by_contra hc
        refine toMap_ne_nil ?_ h1
        rw [decodeFields_eq]
        simpa using hc
      have h3 := encodeMap_keys h
      have h4 : es = [] := by
        have := congrArg List.length h2
        simp only [fieldsOf, List.length_map, List.length_mergeSort, List.length_nil] at this
        exact List.length_eq_zero_iff.mp this
      rw [h4] at h3
      simpa using h3.symm
    · rintro rfl
      simp only [encodeMap, Option.some.injEq] at h
      subst h
      simp [fieldsOf, decodeFields, toMap]

theorem same_empty {a b : Option (GoMap Bytes (Val F))} (h : Same (asVal a) (asVal b)) :
    (a = none ↔ b = none) ∧ (a = some [] ↔ b = some []) := by
  cases a with
  | none =>
    cases b with
    | none => simp
    | some n => have := h []; simp [asVal, look, kind] at this
  | some m =>
    cases b with
    | none => have := h []; simp [asVal, look, kind] at this
    | some n =>
      have h := same_map.mp h
      have key : ∀ {m n : GoMap Bytes (Val F)}, (∀ k, n.get k = none → m.get k = none) → n = [] → m = [] := by
        rintro m _ h rfl
        cases m with
        | nil => rfl
        | cons e m => have := h e.1 rfl; simp [GoMap.get] at this
      simp only [Option.some.injEq, reduceCtorEq, iff_self, true_and]
      constructor
      · exact key fun k hk => by
          rcases h k with ⟨_, h2⟩ | ⟨v, w, h1, _⟩
          · exact h2
          · rw [hk] at h1; cases h1
      · exact key fun k hk => by
          rcases h k with ⟨h2, _⟩ | ⟨v, w, _, h1, _⟩
          · exact h2
          · rw [hk] at h1; cases h1

end Webwire.Json
