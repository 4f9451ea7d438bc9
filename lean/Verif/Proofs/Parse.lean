import Verif.Spec.Api
import Mathlib.Tactic.SplitIfs

/-! Helper lemmas: the parser computes the pure function `decode`. -/

set_option autoImplicit false

namespace Webwire

def byteAt (bs : Bytes) (i : Nat) : UInt8 := bs.getD i 0

def idOf (bs : Bytes) : Bytes := (bs.drop 1).take 8

/-- closed form of the parser on whole messages -/
def decode (bs : Bytes) : Option Spec.View :=
  let t := byteAt bs 0
  let L := bs.length
  let n := (byteAt bs 9).toNat
  let k := (byteAt bs 1).toNat
  if t = 23 then
    if L < 11 then none else
    some { msgType := t, conf := {
      major := byteAt bs 1, minor := byteAt bs 2,
      readTimeout := 1000000 * (Spec.le4 (byteAt bs 3) (byteAt bs 4) (byteAt bs 5) (byteAt bs 6) : Int),
      messageBufferSize := Spec.le4 (byteAt bs 7) (byteAt bs 8) (byteAt bs 9) (byteAt bs 10),
      subProtocolName := bs.drop 11 } }
  else if t = 33 ∨ t = 22 then
    if L ≠ 1 then none else some { msgType := t }
  else if t = 0 then
    if L < 11 ∨ n < 1 ∨ L < 10 + n then none else
    some { msgType := t, ident := idOf bs, name := (bs.drop 10).take n, payload := bs.drop (10 + n) }
  else if t = 21 then
    if L < 2 then none else some { msgType := t, payload := bs.drop 1 }
  else if t = 31 then
    if L ≠ 9 then none else some { msgType := t, ident := idOf bs }
  else if t = 63 ∨ t = 64 then
    if L < 3 ∨ L < 2 + k then none else
    some { msgType := t, name := (bs.drop 2).take k, payload := bs.drop (2 + k) }
  else if t = 65 then
    if L < 4 ∨ L % 2 ≠ 0 ∨ L < 4 + k + k % 2 then none else
    some { msgType := t, name := (bs.drop 2).take k, payload := bs.drop (2 + k + k % 2) }
  else if t = 127 ∨ t = 128 then
    if L < 11 ∨ L < 10 + n then none else
    some { msgType := t, ident := idOf bs, name := (bs.drop 10).take n, payload := bs.drop (10 + n) }
  else if t = 129 then
    if L < 11 ∨ L % 2 ≠ 0 ∨ L < 10 + n + n % 2 then none else
    some { msgType := t, ident := idOf bs, name := (bs.drop 10).take n, payload := bs.drop (10 + n + n % 2) }
  else if t = 191 ∨ t = 192 then
    if L < 9 then none else some { msgType := t, ident := idOf bs, payload := bs.drop 9 }
  else if t = 193 then
    if L < 10 ∨ L % 2 ≠ 0 then none else some { msgType := t, ident := idOf bs, payload := bs.drop 10 }
  else if t = 32 then
    if L < 10 then none else some { msgType := t, ident := idOf bs, payload := bs.drop 9 }
  else if t = 1 ∨ t = 2 ∨ t = 3 ∨ t = 4 ∨ t = 5 then
    if L < 9 then none else some { msgType := t, ident := idOf bs }
  else none

theorem goCopy_le (dst src : Bytes) (h : src.length ≤ dst.length) :
    goCopy dst src = src ++ dst.drop src.length := by
  simp [goCopy, List.take_of_length_le h]

theorem goCopy_full (dst src : Bytes) (h : src.length = dst.length) : goCopy dst src = src := by
  rw [goCopy_le _ _ (by omega), h]; simp

@[simp] theorem sub_ok (a : Bytes) (o l i j : Nat) (h1 : i ≤ j) (h2 : o + j ≤ a.length) :
    Slice.sub ⟨a, o, l⟩ i j = .ok ⟨a, o + i, j - i⟩ := by simp [Slice.sub, h1, h2]

@[simp] theorem tail_ok (a : Bytes) (o l i : Nat) (h1 : i ≤ l) :
    Slice.tail ⟨a, o, l⟩ i = .ok ⟨a, o + i, l - i⟩ := by simp [Slice.tail, h1]

theorem idx_ok (bs rest : Bytes) (o l i : Nat) (h1 : i < l) (h2 : o + i < bs.length) :
    Slice.idx ⟨bs ++ rest, o, l⟩ i = .ok (byteAt bs (o + i)) := by
  simp [Slice.idx, h1, byteAt, List.getElem?_append_left h2, h2]

theorem view_in (bs rest : Bytes) (i j : Nat) (h : i + j ≤ bs.length) :
    (((bs ++ rest).drop i).take j) = (bs.drop i).take j := by
  rw [List.drop_append_of_le_length (by omega), List.take_append_of_le_length (by simp; omega)]

theorem view_end (bs rest : Bytes) (i j : Nat) (h : i + j = bs.length) :
    (((bs ++ rest).drop i).take j) = bs.drop i := by
  rw [view_in _ _ _ _ (by omega), List.take_of_length_le (by simp; omega)]

theorem le4_view (bs : Bytes) (i : Nat) (h : i + 4 ≤ bs.length) :
    leUint32 ((bs.drop i).take 4) =
      .ok (Spec.le4 (byteAt bs i) (byteAt bs (i+1)) (byteAt bs (i+2)) (byteAt bs (i+3))) := by
  have e : (bs.drop i).take 4 = [byteAt bs i, byteAt bs (i+1), byteAt bs (i+2), byteAt bs (i+3)] := by
    rw [List.drop_eq_getElem_cons (by omega), List.drop_eq_getElem_cons (by omega),
      List.drop_eq_getElem_cons (by omega), List.drop_eq_getElem_cons (by omega)]
    have h0 : i < bs.length := by omega
    have h1 : i + 1 < bs.length := by omega
    have h2 : i + 2 < bs.length := by omega
    have h3 : i + 3 < bs.length := by omega
    simp only [List.take_succ_cons, List.take_zero, byteAt, List.getD_eq_getElem?_getD,
      List.getElem?_eq_getElem h0, List.getElem?_eq_getElem h1, List.getElem?_eq_getElem h2,
      List.getElem?_eq_getElem h3, Option.getD_some]
  rw [e]
  simp only [leUint32, Spec.le4]
  congr 1; omega

/-- a clean message whose buffer was just filled with `bs` -/
structure Filled (m : Msg) (bs rest : Bytes) : Prop where
  buf : m.buf = bs ++ rest
  len : m.len = bs.length
  ident : m.ident = zero8
  name : m.name = .nil
  payload : m.payload = {}
  conf : m.conf = {}

variable {m : Msg} {bs rest : Bytes}

theorem Filled.data (f : Filled m bs rest) : m.data = .ok ⟨bs ++ rest, 0, bs.length⟩ := by
  unfold Msg.data
  rw [f.buf, f.len, sub_ok _ _ _ _ _ (by omega) (by simp)]
  simp

theorem Filled.readIdent (f : Filled m bs rest) (h : 9 ≤ bs.length) :
    m.readIdent ⟨bs ++ rest, 0, bs.length⟩ =
      .ok { m with identBytes := .buf 1 8, ident := idOf bs } := by
  unfold Msg.readIdent
  rw [sub_ok _ _ _ _ _ (by omega) (by simp; omega)]
  show Except.ok _ = _
  congr 2
  rw [f.ident, goCopy_full]
  · simp only [Slice.view]; rw [view_in _ _ _ _ (by omega)]; rfl
  · simp [Slice.view, zero8]; omega

/-- the types of messages that carry no identifier -/
def noIdentTypes : List UInt8 := [21, 22, 23, 33, 63, 64, 65]

local macro "ident_tac" : tactic =>
  `(tactic| first | exact fun _ => rfl | (intro h; exact absurd h (by simp_all [noIdentTypes])))

/-- What the individual parser for type `t` is to achieve. -/
def Parses (p : Msg → ParseRes) (t : UInt8) : Prop :=
  ∀ m bs rest, Filled m bs rest → byteAt bs 0 = t → 
    ∃ m' e, p m = .ok (m', e) ∧ m'.buf = m.buf ∧ m'.len = m.len ∧
      match decode bs with
      | some v => e = none ∧ (t ∉ noIdentTypes → m'.identBytes = .buf 1 8) ∧
          ({ m' with msgType := t } : Msg).shown = v
      | none => e ≠ none

theorem parses_request (t : UInt8) (ht : t = 127 ∨ t = 128) : Parses parseRequest t := by
  intro m bs rest f h0
  have hd : decode bs = if bs.length < 11 ∨ bs.length < 10 + (byteAt bs 9).toNat then none else
    some { msgType := t, ident := idOf bs, name := (bs.drop 10).take (byteAt bs 9).toNat,
           payload := bs.drop (10 + (byteAt bs 9).toNat) } := by
    rcases ht with rfl | rfl <;> simp [decode, h0]
  rw [hd]
  unfold parseRequest MinLenRequest
  by_cases h : bs.length < 11
  · rw [if_pos (by rw [f.len]; exact h), if_pos (Or.inl h)]
    exact ⟨_, _, rfl, rfl, rfl, by simp⟩
  rw [if_neg (by rw [f.len]; exact h), f.data]
  simp only [bind, Except.bind]
  rw [f.readIdent (by omega)]
  simp only [idx_ok bs rest 0 bs.length 9 (by omega) (by omega), Nat.zero_add, f.len]
  generalize (byteAt bs 9).toNat = n
  by_cases h2 : bs.length < 10 + n
  · rw [if_pos (by omega), if_pos (by omega), if_pos (by omega)]
    exact ⟨_, _, rfl, rfl, rfl, by simp⟩
  rw [if_neg (c := bs.length < 11 ∨ _) (by omega)]
  by_cases h3 : n > 0
  · rw [if_pos h3, if_neg (by omega), sub_ok _ _ _ _ _ (by omega) (by simp; omega)]
    by_cases h4 : bs.length > 11 + n - 1
    · simp only [if_pos h4]
      rw [tail_ok _ _ _ _ (by omega)]
      refine ⟨_, _, rfl, rfl, rfl, rfl, by ident_tac, ?_⟩
      simp [Msg.shown, Slice.ref, Ref.view, f.buf, f.conf, view_in bs rest 10 n (by omega), view_end bs rest (10+n) (bs.length - (10+n)) (by omega)]
    · simp only [if_neg h4]
      refine ⟨_, _, rfl, rfl, rfl, rfl, by ident_tac, ?_⟩
      simp [Msg.shown, Slice.ref, Ref.view, f.buf, f.conf, f.payload, view_in bs rest 10 n (by omega)]
      omega
  · rw [if_neg h3, tail_ok _ _ _ _ (by omega)]
    refine ⟨_, _, rfl, rfl, rfl, rfl, by ident_tac, ?_⟩
    have : n = 0 := by omega
    simp [Msg.shown, Slice.ref, Ref.view, f.buf, f.conf, f.name, this, view_end bs rest (10) (bs.length - (10)) (by omega)]


theorem parses_request16 : Parses parseRequestUtf16 129 := by
  intro m bs rest f h0
  have hd : decode bs = if bs.length < 11 ∨ bs.length % 2 ≠ 0 ∨
      bs.length < 10 + (byteAt bs 9).toNat + (byteAt bs 9).toNat % 2 then none else
    some { msgType := 129, ident := idOf bs, name := (bs.drop 10).take (byteAt bs 9).toNat,
           payload := bs.drop (10 + (byteAt bs 9).toNat + (byteAt bs 9).toNat % 2) } := by
    simp [decode, h0]
  rw [hd]
  unfold parseRequestUtf16 MinLenRequestUtf16
  by_cases h : bs.length < 11
  · rw [if_pos (by rw [f.len]; exact h), if_pos (Or.inl h)]
    exact ⟨_, _, rfl, rfl, rfl, by simp⟩
  by_cases he : bs.length % 2 ≠ 0
  · rw [if_neg (by rw [f.len]; exact h), if_pos (by rw [f.len]; exact he), if_pos (Or.inr (Or.inl he))]
    exact ⟨_, _, rfl, rfl, rfl, by simp⟩
  rw [if_neg (by rw [f.len]; exact h), if_neg (by rw [f.len]; exact he), f.data]
  simp only [bind, Except.bind]
  rw [f.readIdent (by omega)]
  simp only [idx_ok bs rest 0 bs.length 9 (by omega) (by omega), Nat.zero_add, f.len]
  generalize (byteAt bs 9).toNat = n
  by_cases h2 : bs.length < 10 + n + n % 2
  · rw [if_pos (c := bs.length < 11 ∨ _) (by omega)]
    have h3 : n > 0 := by omega
    have h4 : ¬ (bs.length > 10 + n ∧ n % 2 ≠ 0) := by omega
    simp only [if_pos h3, if_neg h4]
    rw [if_pos (by omega)]
    exact ⟨_, _, rfl, rfl, rfl, by simp⟩
  rw [if_neg (c := bs.length < 11 ∨ _) (by omega)]
  by_cases h3 : n > 0
  · simp only [if_pos h3]
    have e1 : (if bs.length > 10 + n ∧ n % 2 ≠ 0 then 10 + n + 1 else 10 + n) = 10 + n + n % 2 := by
      split_ifs <;> omega
    rw [e1, if_neg (by omega), sub_ok _ _ _ _ _ (by omega) (by simp; omega)]
    by_cases h4 : bs.length > 10 + n + n % 2
    · simp only [if_pos h4]
      rw [tail_ok _ _ _ _ (by omega)]
      refine ⟨_, _, rfl, rfl, rfl, rfl, by ident_tac, ?_⟩
      simp [Msg.shown, Slice.ref, Ref.view, f.buf, f.conf, view_in bs rest 10 n (by omega),
        view_end bs rest (10+n+n%2) (bs.length - (10+n+n%2)) (by omega)]
    · simp only [if_neg h4]
      refine ⟨_, _, rfl, rfl, rfl, rfl, by ident_tac, ?_⟩
      simp [Msg.shown, Slice.ref, Ref.view, f.buf, f.conf, f.payload, view_in bs rest 10 n (by omega)]
      omega
  · simp only [if_neg h3]
    rw [tail_ok _ _ _ _ (by omega)]
    refine ⟨_, _, rfl, rfl, rfl, rfl, by ident_tac, ?_⟩
    have : n = 0 := by omega
    simp [Msg.shown, Slice.ref, Ref.view, f.buf, f.conf, f.name, this,
      view_end bs rest (10) (bs.length - (10)) (by omega)]

theorem parses_signal (t : UInt8) (ht : t = 63 ∨ t = 64) : Parses parseSignal t := by
  intro m bs rest f h0
  have hd : decode bs = if bs.length < 3 ∨ bs.length < 2 + (byteAt bs 1).toNat then none else
    some { msgType := t, name := (bs.drop 2).take (byteAt bs 1).toNat,
           payload := bs.drop (2 + (byteAt bs 1).toNat) } := by
    rcases ht with rfl | rfl <;> simp [decode, h0]
  rw [hd]
  unfold parseSignal MinLenSignal
  by_cases h : bs.length < 3
  · rw [if_pos (by rw [f.len]; exact h), if_pos (Or.inl h)]
    exact ⟨_, _, rfl, rfl, rfl, by simp⟩
  rw [if_neg (by rw [f.len]; exact h), f.data]
  simp only [bind, Except.bind, idx_ok bs rest 0 bs.length 1 (by omega) (by omega), Nat.zero_add, f.len]
  generalize (byteAt bs 1).toNat = n
  by_cases h2 : bs.length < 2 + n
  · rw [if_pos (by omega), if_pos (by omega)]
    exact ⟨_, _, rfl, rfl, f.len, by simp⟩
  rw [if_neg (by omega), if_neg (c := bs.length < 3 ∨ _) (by omega)]
  by_cases h3 : n > 0
  · simp only [if_pos h3]
    rw [sub_ok _ _ _ _ _ (by omega) (by simp; omega)]
    simp only
    rw [tail_ok _ _ _ _ (by omega)]
    refine ⟨_, _, rfl, rfl, rfl, rfl, by ident_tac, ?_⟩
    simp [Msg.shown, Slice.ref, Ref.view, f.buf, f.conf, f.ident, view_in bs rest 2 n (by omega),
      view_end bs rest (2+n) (bs.length - (2+n)) (by omega)]
    rfl
  · simp only [if_neg h3]
    rw [tail_ok _ _ _ _ (by omega)]
    refine ⟨_, _, rfl, rfl, rfl, rfl, by ident_tac, ?_⟩
    have : n = 0 := by omega
    simp [Msg.shown, Slice.ref, Ref.view, f.buf, f.conf, f.name, f.ident, this,
      view_end bs rest 2 (bs.length - 2) (by omega)]
    rfl

theorem parses_signal16 : Parses parseSignalUtf16 65 := by
  intro m bs rest f h0
  have hd : decode bs = if bs.length < 4 ∨ bs.length % 2 ≠ 0 ∨
      bs.length < 4 + (byteAt bs 1).toNat + (byteAt bs 1).toNat % 2 then none else
    some { msgType := 65, name := (bs.drop 2).take (byteAt bs 1).toNat,
           payload := bs.drop (2 + (byteAt bs 1).toNat + (byteAt bs 1).toNat % 2) } := by
    simp [decode, h0]
  rw [hd]
  unfold parseSignalUtf16 MinLenSignalUtf16
  by_cases h : bs.length < 4
  · rw [if_pos (by rw [f.len]; exact h), if_pos (Or.inl h)]
    exact ⟨_, _, rfl, rfl, rfl, by simp⟩
  by_cases he : bs.length % 2 ≠ 0
  · rw [if_neg (by rw [f.len]; exact h), if_pos (by rw [f.len]; exact he), if_pos (Or.inr (Or.inl he))]
    exact ⟨_, _, rfl, rfl, rfl, by simp⟩
  rw [if_neg (by rw [f.len]; exact h), if_neg (by rw [f.len]; exact he), f.data]
  simp only [bind, Except.bind, idx_ok bs rest 0 bs.length 1 (by omega) (by omega), Nat.zero_add, f.len]
  generalize (byteAt bs 1).toNat = n
  have e1 : (if n % 2 ≠ 0 then 4 + n + 1 else 4 + n) = 4 + n + n % 2 := by split_ifs <;> omega
  have e2 : (if n % 2 ≠ 0 then 2 + n + 1 else 2 + n) = 2 + n + n % 2 := by split_ifs <;> omega
  rw [e1, e2]
  by_cases h2 : bs.length < 4 + n + n % 2
  · rw [if_pos (by omega), if_pos (by omega)]
    exact ⟨_, _, rfl, rfl, f.len, by simp⟩
  rw [if_neg (by omega), if_neg (c := bs.length < 4 ∨ _) (by omega)]
  by_cases h3 : n > 0
  · simp only [if_pos h3]
    rw [sub_ok _ _ _ _ _ (by omega) (by simp; omega)]
    simp only
    rw [tail_ok _ _ _ _ (by omega)]
    refine ⟨_, _, rfl, rfl, rfl, rfl, by ident_tac, ?_⟩
    simp [Msg.shown, Slice.ref, Ref.view, f.buf, f.conf, f.ident, view_in bs rest 2 n (by omega),
      view_end bs rest (2+n+n%2) (bs.length - (2+n+n%2)) (by omega)]
    rfl
  · simp only [if_neg h3]
    rw [tail_ok _ _ _ _ (by omega)]
    refine ⟨_, _, rfl, rfl, rfl, rfl, by ident_tac, ?_⟩
    have : n = 0 := by omega
    simp [Msg.shown, Slice.ref, Ref.view, f.buf, f.conf, f.name, f.ident, this,
      view_end bs rest 2 (bs.length - 2) (by omega)]
    rfl

theorem parses_errorReply : Parses parseErrorReply 0 := by
  intro m bs rest f h0
  have hd : decode bs = if bs.length < 11 ∨ (byteAt bs 9).toNat < 1 ∨
      bs.length < 10 + (byteAt bs 9).toNat then none else
    some { msgType := 0, ident := idOf bs, name := (bs.drop 10).take (byteAt bs 9).toNat,
           payload := bs.drop (10 + (byteAt bs 9).toNat) } := by
    simp [decode, h0]
  rw [hd]
  unfold parseErrorReply MinLenReplyError
  by_cases h : bs.length < 11
  · rw [if_pos (by rw [f.len]; exact h), if_pos (Or.inl h)]
    exact ⟨_, _, rfl, rfl, rfl, by simp⟩
  rw [if_neg (by rw [f.len]; exact h), f.data]
  simp only [bind, Except.bind]
  rw [f.readIdent (by omega)]
  simp only
  rw [sub_ok _ _ _ _ _ (by omega) (by simp; omega)]
  simp only [Nat.zero_add]
  rw [idx_ok bs rest 9 _ 0 (by omega) (by omega)]
  simp only [Nat.add_zero, f.len]
  generalize (byteAt bs 9).toNat = n
  by_cases h1 : n < 1
  · rw [if_pos h1, if_pos (by omega)]
    exact ⟨_, _, rfl, rfl, rfl, by simp⟩
  rw [if_neg h1]
  by_cases h2 : bs.length < 10 + n
  · rw [if_pos (by omega), if_pos (by omega)]
    exact ⟨_, _, rfl, rfl, rfl, by simp⟩
  rw [if_neg (by omega), if_neg (by omega), sub_ok _ _ _ _ _ (by omega) (by simp; omega)]
  simp only
  rw [tail_ok _ _ _ _ (by omega)]
  refine ⟨_, _, rfl, rfl, rfl, rfl, by ident_tac, ?_⟩
  simp [Msg.shown, Slice.ref, Ref.view, f.buf, f.conf, view_in bs rest 10 n (by omega),
    view_end bs rest (10+n) (bs.length - (10+n)) (by omega)]

theorem parses_sessionCreated : Parses parseSessionCreated 21 := by
  intro m bs rest f h0
  have hd : decode bs = if bs.length < 2 then none else
    some { msgType := 21, payload := bs.drop 1 } := by simp [decode, h0]
  rw [hd]
  unfold parseSessionCreated MinLenNotifySessionCreated
  by_cases h : bs.length < 2
  · rw [if_pos (by rw [f.len]; exact h), if_pos h]
    exact ⟨_, _, rfl, rfl, rfl, by simp⟩
  rw [if_neg (by rw [f.len]; exact h), f.data, if_neg h]
  simp only [bind, Except.bind]
  rw [tail_ok _ _ _ _ (by omega)]
  refine ⟨_, _, rfl, rfl, rfl, rfl, by ident_tac, ?_⟩
  simp [Msg.shown, Slice.ref, Ref.view, f.buf, f.conf, f.ident, f.name]
  exact ⟨rfl, by simpa using view_end bs rest 1 (bs.length - 1) (by omega)⟩

theorem parses_restoreSession : Parses parseRestoreSession 32 := by
  intro m bs rest f h0
  have hd : decode bs = if bs.length < 10 then none else
    some { msgType := 32, ident := idOf bs, payload := bs.drop 9 } := by simp [decode, h0]
  rw [hd]
  unfold parseRestoreSession MinLenRequestRestoreSession
  by_cases h : bs.length < 10
  · rw [if_pos (by rw [f.len]; exact h), if_pos h]
    exact ⟨_, _, rfl, rfl, rfl, by simp⟩
  rw [if_neg (by rw [f.len]; exact h), f.data, if_neg h]
  simp only [bind, Except.bind]
  rw [f.readIdent (by omega)]
  simp only
  rw [tail_ok _ _ _ _ (by omega)]
  refine ⟨_, _, rfl, rfl, rfl, rfl, by ident_tac, ?_⟩
  simp [Msg.shown, Slice.ref, Ref.view, f.buf, f.conf, f.name,
    view_end bs rest 9 (bs.length - 9) (by omega)]

theorem parses_closeSession : Parses parseCloseSession 31 := by
  intro m bs rest f h0
  have hd : decode bs = if bs.length ≠ 9 then none else
    some { msgType := 31, ident := idOf bs } := by simp [decode, h0]
  rw [hd]
  unfold parseCloseSession MinLenDoCloseSession
  by_cases h : bs.length ≠ 9
  · rw [if_pos (by rw [f.len]; exact h), if_pos h]
    exact ⟨_, _, rfl, rfl, rfl, by simp⟩
  rw [if_neg (by rw [f.len]; exact h), f.data, if_neg h]
  simp only [bind, Except.bind]
  rw [f.readIdent (by omega)]
  refine ⟨_, _, rfl, rfl, rfl, rfl, by ident_tac, ?_⟩
  simp [Msg.shown, Ref.view, f.conf, f.name, f.payload]

theorem parses_special (t : UInt8) (ht : t = 1 ∨ t = 2 ∨ t = 3 ∨ t = 4 ∨ t = 5) :
    Parses parseSpecialReplyMessage t := by
  intro m bs rest f h0
  have hd : decode bs = if bs.length < 9 then none else
    some { msgType := t, ident := idOf bs } := by
      rcases ht with rfl | rfl | rfl | rfl | rfl <;> simp [decode, h0]
  rw [hd]
  unfold parseSpecialReplyMessage
  by_cases h : bs.length < 9
  · rw [if_pos (by rw [f.len]; exact h), if_pos h]
    exact ⟨_, _, rfl, rfl, rfl, by simp⟩
  rw [if_neg (by rw [f.len]; exact h), f.data, if_neg h]
  simp only [bind, Except.bind]
  rw [f.readIdent (by omega)]
  refine ⟨_, _, rfl, rfl, rfl, rfl, by ident_tac, ?_⟩
  simp [Msg.shown, Ref.view, f.conf, f.name, f.payload]

theorem parses_reply (t : UInt8) (ht : t = 191 ∨ t = 192) : Parses parseReply t := by
  intro m bs rest f h0
  have hd : decode bs = if bs.length < 9 then none else
    some { msgType := t, ident := idOf bs, payload := bs.drop 9 } := by
      rcases ht with rfl | rfl <;> simp [decode, h0]
  rw [hd]
  unfold parseReply MinLenReply
  by_cases h : bs.length < 9
  · rw [if_pos (by rw [f.len]; exact h), if_pos h]
    exact ⟨_, _, rfl, rfl, rfl, by simp⟩
  rw [if_neg (by rw [f.len]; exact h), f.data, if_neg h]
  simp only [bind, Except.bind]
  rw [f.readIdent (by omega)]
  simp only [f.len]
  by_cases h2 : bs.length = 9
  · rw [if_pos h2]
    refine ⟨_, _, rfl, rfl, rfl, rfl, by ident_tac, ?_⟩
    simp [Msg.shown, Ref.view, f.conf, f.name, f.payload]
    omega
  rw [if_neg h2, tail_ok _ _ _ _ (by omega)]
  refine ⟨_, _, rfl, rfl, rfl, rfl, by ident_tac, ?_⟩
  simp [Msg.shown, Slice.ref, Ref.view, f.buf, f.conf, f.name,
    view_end bs rest 9 (bs.length - 9) (by omega)]

theorem parses_reply16 : Parses parseReplyUtf16 193 := by
  intro m bs rest f h0
  have hd : decode bs = if bs.length < 10 ∨ bs.length % 2 ≠ 0 then none else
    some { msgType := 193, ident := idOf bs, payload := bs.drop 10 } := by simp [decode, h0]
  rw [hd]
  unfold parseReplyUtf16 MinLenReplyUtf16
  by_cases h : bs.length < 10
  · rw [if_pos (by rw [f.len]; exact h), if_pos (Or.inl h)]
    exact ⟨_, _, rfl, rfl, rfl, by simp⟩
  by_cases he : bs.length % 2 ≠ 0
  · rw [if_neg (by rw [f.len]; exact h), if_pos (by rw [f.len]; exact he), if_pos (Or.inr he)]
    exact ⟨_, _, rfl, rfl, rfl, by simp⟩
  rw [if_neg (by rw [f.len]; exact h), if_neg (by rw [f.len]; exact he), f.data, if_neg (by omega)]
  simp only [bind, Except.bind]
  rw [f.readIdent (by omega)]
  simp only [f.len]
  by_cases h2 : bs.length = 10
  · rw [if_pos h2]
    refine ⟨_, _, rfl, rfl, rfl, rfl, by ident_tac, ?_⟩
    simp [Msg.shown, Ref.view, f.conf, f.name]
    omega
  rw [if_neg h2, tail_ok _ _ _ _ (by omega)]
  refine ⟨_, _, rfl, rfl, rfl, rfl, by ident_tac, ?_⟩
  simp [Msg.shown, Slice.ref, Ref.view, f.buf, f.conf, f.name,
    view_end bs rest 10 (bs.length - 10) (by omega)]

theorem parses_heartbeat : Parses parseHeartbeat 33 := by
  intro m bs rest f h0
  have hd : decode bs = if bs.length ≠ 1 then none else some { msgType := 33 } := by simp [decode, h0]
  rw [hd]
  unfold parseHeartbeat
  by_cases h : bs.length ≠ 1
  · rw [if_pos (by rw [f.len]; exact h), if_pos h]
    exact ⟨_, _, rfl, rfl, rfl, by simp⟩
  rw [if_neg (by rw [f.len]; exact h), if_neg h]
  refine ⟨_, _, rfl, rfl, rfl, rfl, by ident_tac, ?_⟩
  simp [Msg.shown, Ref.view, f.conf, f.name, f.payload, f.ident]
  rfl

theorem parses_sessionClosed : Parses parseSessionClosed 22 := by
  intro m bs rest f h0
  have hd : decode bs = if bs.length ≠ 1 then none else some { msgType := 22 } := by simp [decode, h0]
  rw [hd]
  unfold parseSessionClosed MinLenNotifySessionClosed
  by_cases h : bs.length ≠ 1
  · rw [if_pos (by rw [f.len]; exact h), if_pos h]
    exact ⟨_, _, rfl, rfl, rfl, by simp⟩
  rw [if_neg (by rw [f.len]; exact h), if_neg h]
  refine ⟨_, _, rfl, rfl, rfl, rfl, by ident_tac, ?_⟩
  simp [Msg.shown, Ref.view, f.conf, f.name, f.payload, f.ident]
  rfl

theorem parses_acceptConf : Parses parseAcceptConf 23 := by
  intro m bs rest f h0
  have hd : decode bs = if bs.length < 11 then none else
    some { msgType := 23, conf := {
      major := byteAt bs 1, minor := byteAt bs 2,
      readTimeout := 1000000 * (Spec.le4 (byteAt bs 3) (byteAt bs 4) (byteAt bs 5) (byteAt bs 6) : Int),
      messageBufferSize := Spec.le4 (byteAt bs 7) (byteAt bs 8) (byteAt bs 9) (byteAt bs 10),
      subProtocolName := bs.drop 11 } } := by simp [decode, h0]
  rw [hd]
  unfold parseAcceptConf MinLenAcceptConf
  by_cases h : bs.length < 11
  · rw [if_pos (by rw [f.len]; exact h), if_pos h]
    exact ⟨_, _, rfl, rfl, rfl, by simp⟩
  rw [if_neg (by rw [f.len]; exact h), f.data, if_neg h]
  have s1 : Slice.sub ⟨bs ++ rest, 0, bs.length⟩ 1 2 = .ok ⟨bs ++ rest, 1, 1⟩ :=
    sub_ok _ _ _ _ _ (by omega) (by simp; omega)
  have s2 : Slice.sub ⟨bs ++ rest, 0, bs.length⟩ 2 3 = .ok ⟨bs ++ rest, 2, 1⟩ :=
    sub_ok _ _ _ _ _ (by omega) (by simp; omega)
  have s3 : Slice.sub ⟨bs ++ rest, 0, bs.length⟩ 3 7 = .ok ⟨bs ++ rest, 3, 4⟩ :=
    sub_ok _ _ _ _ _ (by omega) (by simp; omega)
  have s4 : Slice.sub ⟨bs ++ rest, 0, bs.length⟩ 7 11 = .ok ⟨bs ++ rest, 7, 4⟩ :=
    sub_ok _ _ _ _ _ (by omega) (by simp; omega)
  have i1 : Slice.idx ⟨bs ++ rest, 1, 1⟩ 0 = .ok (byteAt bs 1) :=
    idx_ok bs rest 1 1 0 (by omega) (by omega)
  have i2 : Slice.idx ⟨bs ++ rest, 2, 1⟩ 0 = .ok (byteAt bs 2) :=
    idx_ok bs rest 2 1 0 (by omega) (by omega)
  simp only [bind, Except.bind, s1, s2, s3, s4, i1, i2, Slice.view, view_in bs rest 3 4 (by omega),
    view_in bs rest 7 4 (by omega), le4_view bs 3 (by omega), le4_view bs 7 (by omega), f.len]
  by_cases h2 : bs.length > 11
  · rw [if_pos h2, tail_ok _ _ _ _ (by omega)]
    refine ⟨_, _, rfl, rfl, rfl, rfl, by ident_tac, ?_⟩
    simp [Msg.shown, Slice.ref, Ref.view, f.buf, f.name, f.payload, f.ident,
      view_end bs rest 11 (bs.length - 11) (by omega), millisecond, Int.mul_comm]
    rfl
  · rw [if_neg h2]
    refine ⟨_, _, rfl, rfl, rfl, rfl, by ident_tac, ?_⟩
    simp [Msg.shown, Ref.view, f.name, f.payload, f.ident, millisecond, Int.mul_comm]
    exact ⟨rfl, by omega⟩

/-- The encoding the parser ends up with for a type byte: the documented one, except that error replies are
reported as binary (parse.go:100 overrides parseErrorReply.go:50). -/
def parserEncoding (t : UInt8) : Encoding :=
  if t = 64 ∨ t = 128 ∨ t = 192 then encUtf8
  else if t = 65 ∨ t = 129 ∨ t = 193 then encUtf16
  else encBinary

theorem parserFor_some (t : UInt8) (h : t ∈ Spec.messageTypes) :
    ∃ p, parserFor t = some (p, parserEncoding t) ∧ Parses p t := by
  simp only [Spec.messageTypes, List.mem_cons, List.not_mem_nil, or_false] at h
  rcases h with rfl | rfl | rfl | rfl | rfl | rfl | rfl | rfl | rfl | rfl | rfl | rfl | rfl | rfl | rfl |
    rfl | rfl | rfl | rfl | rfl | rfl
  · exact ⟨_, rfl, parses_errorReply⟩
  · exact ⟨_, rfl, parses_special _ (by simp)⟩
  · exact ⟨_, rfl, parses_special _ (by simp)⟩
  · exact ⟨_, rfl, parses_special _ (by simp)⟩
  · exact ⟨_, rfl, parses_special _ (by simp)⟩
  · exact ⟨_, rfl, parses_special _ (by simp)⟩
  · exact ⟨_, rfl, parses_sessionCreated⟩
  · exact ⟨_, rfl, parses_sessionClosed⟩
  · exact ⟨_, rfl, parses_acceptConf⟩
  · exact ⟨_, rfl, parses_closeSession⟩
  · exact ⟨_, rfl, parses_restoreSession⟩
  · exact ⟨_, rfl, parses_heartbeat⟩
  · exact ⟨_, rfl, parses_signal _ (by simp)⟩
  · exact ⟨_, rfl, parses_signal _ (by simp)⟩
  · exact ⟨_, rfl, parses_signal16⟩
  · exact ⟨_, rfl, parses_request _ (by simp)⟩
  · exact ⟨_, rfl, parses_request _ (by simp)⟩
  · exact ⟨_, rfl, parses_request16⟩
  · exact ⟨_, rfl, parses_reply _ (by simp)⟩
  · exact ⟨_, rfl, parses_reply _ (by simp)⟩
  · exact ⟨_, rfl, parses_reply16⟩

theorem parserFor_none (t : UInt8) (h : t ∉ Spec.messageTypes) : parserFor t = none := by
  simp only [Spec.messageTypes, List.mem_cons, List.not_mem_nil, or_false, not_or] at h
  simp [parserFor, MsgAcceptConf, MsgHeartbeat, MsgReplyError, MsgNotifySessionCreated,
    MsgNotifySessionClosed, MsgRequestCloseSession, MsgSignalBinary, MsgSignalUtf8, MsgSignalUtf16,
    MsgRequestBinary, MsgRequestUtf8, MsgRequestUtf16, MsgReplyBinary, MsgReplyUtf8, MsgReplyUtf16,
    MsgRequestRestoreSession, MsgReplyShutdown, MsgReplyInternalError, MsgReplySessionNotFound,
    MsgReplyMaxSessConnsReached, MsgReplySessionsDisabled, h]

theorem decode_none_of_type (h : byteAt bs 0 ∉ Spec.messageTypes) : decode bs = none := by
  simp only [Spec.messageTypes, List.mem_cons, List.not_mem_nil, or_false, not_or] at h
  simp [decode, h]

/-- Result of parsing a freshly filled clean message, in terms of `decode`. -/
theorem parse_filled (f : Filled m bs rest) (hne : bs ≠ []) :
    ∃ m' tp e, m.parse = .ok (m', tp, e) ∧ m'.buf = m.buf ∧ m'.len = m.len ∧
      (tp = true ↔ byteAt bs 0 ∈ Spec.messageTypes) ∧
      (tp = true → m'.msgType = byteAt bs 0 ∧ m'.payload.encoding = parserEncoding (byteAt bs 0)) ∧
      match decode bs with
      | some v => tp = true ∧ e = none ∧
          (byteAt bs 0 ∉ noIdentTypes → m'.identBytes = .buf 1 8) ∧ m'.shown = v
      | none => e ≠ none := by
  have hl : 0 < bs.length := List.length_pos_iff.mpr hne
  have hemp : m.isEmpty = false := by simp [Msg.isEmpty, f.len]; omega
  have s1 : Slice.sub ⟨m.buf, 0, m.buf.length⟩ 0 1 = .ok ⟨bs ++ rest, 0, 1⟩ := by
    rw [f.buf]; exact sub_ok _ _ _ _ _ (by omega) (by simp; omega)
  have i1 : Slice.idx ⟨bs ++ rest, 0, 1⟩ 0 = .ok (byteAt bs 0) :=
    idx_ok bs rest 0 1 0 (by omega) (by omega)
  unfold Msg.parse
  simp only [hemp, bind, Except.bind, s1, i1, Bool.false_eq_true, if_false]
  by_cases ht : byteAt bs 0 ∈ Spec.messageTypes
  · obtain ⟨p, hp, hps⟩ := parserFor_some _ ht
    obtain ⟨m', e, hm, hb, hlen, hres⟩ := hps m bs rest f rfl
    rw [hp]
    simp only [hm]
    refine ⟨_, _, _, rfl, hb, hlen, by simp [ht], by simp, ?_⟩
    revert hres
    cases decode bs with
    | none => simp
    | some v =>
      simp only
      rintro ⟨rfl, hi, hv⟩
      exact ⟨trivial, rfl, hi, by rw [← hv]; rfl⟩
  · rw [parserFor_none _ ht, decode_none_of_type ht]
    exact ⟨_, _, _, rfl, rfl, rfl, by simp [ht], by simp, by simp⟩

theorem Clean.filled (c : Clean m) (hlen : bs.length ≤ m.buf.length) :
    Filled { m with buf := goCopy m.buf bs, len := bs.length } bs (m.buf.drop bs.length) where
  buf := goCopy_le _ _ hlen
  len := rfl
  ident := c.ident
  name := c.name
  payload := c.payload
  conf := c.conf

theorem readBytes_eq (hne : bs ≠ []) (hlen : bs.length ≤ m.buf.length) :
    m.readBytes bs = ({ m with buf := goCopy m.buf bs, len := bs.length } : Msg).parse := by
  have hl : 0 < bs.length := List.length_pos_iff.mpr hne
  unfold Msg.readBytes
  rw [if_neg (by omega), if_neg (by omega)]
  simp only [Msg.bufferClose]
  split_ifs <;> rfl

/-- Result of `ReadBytes` on a clean message, in terms of `decode`. -/
theorem readBytes_clean (c : Clean m) (hne : bs ≠ []) (hlen : bs.length ≤ m.buf.length) :
    ∃ m' tp e, m.readBytes bs = .ok (m', tp, e) ∧ m'.buf = bs ++ m.buf.drop bs.length ∧
      m'.len = bs.length ∧
      (tp = true ↔ byteAt bs 0 ∈ Spec.messageTypes) ∧
      (tp = true → m'.msgType = byteAt bs 0 ∧ m'.payload.encoding = parserEncoding (byteAt bs 0)) ∧
      match decode bs with
      | some v => tp = true ∧ e = none ∧
          (byteAt bs 0 ∉ noIdentTypes → m'.identBytes = .buf 1 8) ∧ m'.shown = v
      | none => e ≠ none := by
  rw [readBytes_eq hne hlen]
  obtain ⟨m', tp, e, h1, h2, h3, h4⟩ := parse_filled (c.filled hlen) hne
  exact ⟨m', tp, e, h1, h2.trans (goCopy_le _ _ hlen), h3, h4⟩

end Webwire
