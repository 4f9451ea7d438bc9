import Verif.Proofs.Grammar
import Verif.Proofs.Write

/-! Helper lemmas for round trips: what a grammatical message shows after `ReadBytes`. -/

set_option autoImplicit false

namespace Webwire
open Spec

variable {σ : Type}

theorem written_append (a b : List Event) : written (a ++ b) = written a ++ written b := by
  induction a with
  | nil => rfl
  | cons e l ih => cases e <;> simp [written, ih]

theorem written_map (ch : List Bytes) : written (ch.map .wrote) = ch.flatten := by
  induction ch with
  | nil => rfl
  | cons e l ih => simp [written, ih]

/-- A call that returned no error wrote exactly the layout and closed successfully. -/
theorem Spec.MsgLog.written {layout : Bytes} {log : List Event} (h : MsgLog layout log none) :
    Spec.written log = layout := by
  rcases h with ⟨ch, hf, ⟨rfl, -⟩ | ⟨-, he⟩⟩ | ⟨_, _, _, _, _, he⟩
  · rw [written_append, written_map, hf]; simp [Spec.written]
  · exact absurd rfl he
  · exact absurd rfl he

theorem byteAt_of_grammar {bs : Bytes} {v : View} (h : Grammar bs v) : byteAt bs 0 = v.msgType := by
  cases h <;> rfl

theorem grammar_ne_nil {bs : Bytes} {v : View} (h : Grammar bs v) : bs ≠ [] := by
  cases h <;> simp

theorem view_ident {bs rest : Bytes} (h : 9 ≤ bs.length) :
    (Ref.buf 1 8).view (bs ++ rest) = idOf bs := view_in bs rest 1 8 (by omega)

theorem grammar_ident {bs : Bytes} {v : View} (h : Grammar bs v) (ht : v.msgType ∉ noIdentTypes) :
    9 ≤ bs.length ∧ idOf bs = v.ident := by
  cases h <;> first
    | (exfalso; simp [noIdentTypes] at ht; done)
    | skip
  case closeSession id hid => exact ⟨by simp [hid], by simpa using idOf_cons 31 id [] hid⟩
  case signal t n name payload h1 h2 h3 =>
    simp only [List.mem_cons, List.not_mem_nil, or_false] at h1
    rcases h1 with rfl | rfl <;> simp [noIdentTypes] at ht
  all_goals
    rename_i hid
    first
      | exact ⟨by simp; omega, idOf_cons _ _ _ (by assumption)⟩

/-- Reading a grammatical message into a clean message object. -/
theorem read_grammar {m : Msg} {bs : Bytes} {v : View} (c : Clean m) (hfit : bs.length ≤ m.buf.length)
    (h : Grammar bs v) :
    ∃ m', m.readBytes bs = .ok (m', true, none) ∧ m'.shown = v ∧
      m'.payload.encoding = parserEncoding v.msgType ∧ m'.buf = bs ++ m.buf.drop bs.length ∧
      m'.len = bs.length ∧
      (v.msgType ∉ noIdentTypes → m'.identBytes = .buf 1 8 ∧ m'.identBytes.view m'.buf = v.ident) := by
  obtain ⟨m', tp, e, h1, h2, h3, h4, h5, h6⟩ := readBytes_clean c (grammar_ne_nil h) hfit
  rw [decode_of_grammar h] at h6
  obtain ⟨rfl, rfl, hi, hs⟩ := h6
  rw [byteAt_of_grammar h] at h5 hi
  refine ⟨m', h1, hs, (h5 rfl).2, h2, h3, fun ht => ⟨hi ht, ?_⟩⟩
  obtain ⟨hl, he⟩ := grammar_ident h ht
  rw [hi ht, h2, view_ident hl, he]

theorem Shows.of_shown {m : Msg} {v : View} (hs : m.shown = v) (hl : 0 < m.len) :
    Shows m v.msgType v.ident v.name m.payload.encoding v.payload := by
  have he : m.isEmpty = false := by simp [Msg.isEmpty]; omega
  subst hs
  constructor <;> simp [Msg.shown, Msg.Identifier, Msg.Name, Msg.PayloadEncoding, Msg.Payload, he]

/-- The form used by the property theorems. -/
theorem read_shows {m : Msg} {bs : Bytes} {v : View} (c : Clean m) (hfit : bs.length ≤ m.buf.length)
    (h : Grammar bs v) :
    ∃ m', m.readBytes bs = .ok (m', true, none) ∧
      Shows m' v.msgType v.ident v.name (parserEncoding v.msgType) v.payload ∧ m'.shown = v ∧
      (v.msgType ∉ noIdentTypes → m'.identBytes.view m'.buf = v.ident) := by
  obtain ⟨m', h1, hs, he, hb, hl, hi⟩ := read_grammar c hfit h
  have hpos : 0 < m'.len := by rw [hl]; exact List.length_pos_iff.mpr (grammar_ne_nil h)
  exact ⟨m', h1, he ▸ Shows.of_shown hs hpos, hs, fun ht => (hi ht).2⟩

theorem ofNat_toNat_le (n : Nat) (h : n ≤ 255) : (UInt8.ofNat n).toNat = n := by
  simp; omega

/-! bytes written by the accepted calls are grammatical -/

theorem request_grammar (id name payload : Bytes) (enc : Encoding) (safe : Bool) (hid : id.length = 8)
    (h : ¬ badRequest name enc payload safe) :
    Grammar (requestType enc :: (id ++ UInt8.ofNat name.length :: (name ++ padFor enc name ++ payload)))
      { msgType := requestType enc, ident := id, name := name, payload := payload } := by
  unfold badRequest at h
  push Not at h
  obtain ⟨h1, h2, h3, -⟩ := h
  have hne : name ≠ [] ∨ payload ≠ [] := by
    by_contra hc
    push Not at hc
    obtain ⟨rfl, rfl⟩ := hc
    simp at h1
  have hn := ofNat_toNat_le name.length (by omega)
  by_cases he : enc = 2
  · subst he
    refine Grammar.request16 _ _ _ _ _ hid hn ?_ hne (h3 rfl)
    unfold padFor
    split_ifs with hp
    · simp; omega
    · have : ¬ name.length % 2 ≠ 0 := fun h => hp ⟨rfl, h⟩
      simp; omega
  · have hp : padFor enc name = [] := by
      unfold padFor; rw [if_neg]; exact fun h => he h.1
    rw [hp, List.append_nil]
    refine Grammar.request _ _ _ _ _ ?_ hid hn hne
    unfold requestType
    rw [if_neg he]
    split_ifs <;> simp

theorem signal_grammar (name payload : Bytes) (enc : Encoding) (safe : Bool)
    (h : ¬ badSignal name enc payload safe) (hne : name ≠ [] ∨ payload ≠ []) (h16 : enc = 2 → payload ≠ []) :
    Grammar (signalType enc :: UInt8.ofNat name.length :: (name ++ padFor enc name ++ payload))
      { msgType := signalType enc, name := name, payload := payload } := by
  unfold badSignal at h
  push Not at h
  obtain ⟨h2, h3, -⟩ := h
  have hn := ofNat_toNat_le name.length (by omega)
  by_cases he : enc = 2
  · subst he
    refine Grammar.signal16 _ _ _ _ hn ?_ (h16 rfl) (h3 rfl)
    unfold padFor
    split_ifs with hp
    · simp; omega
    · have : ¬ name.length % 2 ≠ 0 := fun h => hp ⟨rfl, h⟩
      simp; omega
  · have hp : padFor enc name = [] := by
      unfold padFor; rw [if_neg]; exact fun h => he h.1
    rw [hp, List.append_nil]
    refine Grammar.signal _ _ _ _ ?_ hn hne
    unfold signalType
    rw [if_neg he]
    split_ifs <;> simp

theorem reply_grammar (id payload : Bytes) (enc : Encoding) (hid : id.length = 8)
    (h : ¬ (enc = encUtf16 ∧ payload.length % 2 ≠ 0)) :
    Grammar (replyType enc :: (id ++ (if enc = 2 then [0] else []) ++ payload))
      { msgType := replyType enc, ident := id, payload := payload } := by
  by_cases he : enc = 2
  · subst he
    have : payload.length % 2 = 0 := by
      by_contra hc; exact h ⟨rfl, hc⟩
    rw [show replyType 2 = 193 from rfl]
    simpa using Grammar.reply16 0 id payload hid this
  · rw [if_neg he, List.append_nil]
    refine Grammar.reply _ _ _ ?_ hid
    unfold replyType
    rw [if_neg he]
    split_ifs <;> simp

theorem error_grammar (id code text : Bytes) (hid : id.length = 8) (h1 : code ≠ []) (h2 : code.length ≤ 255) :
    Grammar (0 :: (id ++ UInt8.ofNat code.length :: (code ++ text)))
      { msgType := 0, ident := id, name := code, payload := text } :=
  Grammar.errorReply _ _ _ _ hid (ofNat_toNat_le _ h2) h1

theorem requestType_eq (enc : Encoding) : requestType enc = typeByte 127 enc := by
  unfold requestType typeByte; split_ifs <;> rfl
theorem signalType_eq (enc : Encoding) : signalType enc = typeByte 63 enc := by
  unfold signalType typeByte; split_ifs <;> rfl
theorem replyType_eq (enc : Encoding) : replyType enc = typeByte 191 enc := by
  unfold replyType typeByte; split_ifs <;> rfl

theorem enc_request (enc : Encoding) : parserEncoding (requestType enc) = canonEnc enc := by
  unfold requestType canonEnc; split_ifs <;> rfl
theorem enc_signal (enc : Encoding) : parserEncoding (signalType enc) = canonEnc enc := by
  unfold signalType canonEnc; split_ifs <;> rfl
theorem enc_reply (enc : Encoding) : parserEncoding (replyType enc) = canonEnc enc := by
  unfold replyType canonEnc; split_ifs <;> rfl

/-! from a successful call to its parts -/

theorem closeWith_ne_none (w : Writer σ) (s s' : σ) (log : List Event) (err : Err) :
    closeWith (observed w) (s, []) err ≠ .ok ((s', log), none) := by
  intro h
  exact (closeWith_log _ _ _ _ _ _ _ h).2 rfl

theorem runParts_written (w : Writer σ) (s s' : σ) (log : List Event) (parts : List Bytes)
    (h : runParts (observed w) (s, []) parts = .ok ((s', log), none)) : written log = parts.flatten := by
  obtain ⟨l, rfl, hl⟩ := runParts_log _ _ _ _ _ _ _ h
  exact hl.written

theorem request_accepted (w : Writer σ) (s s' : σ) (log : List Event) (id name : Bytes) (enc : Encoding)
    (payload : Bytes) (safe : Bool)
    (h : writeMsgRequest (observed w) (s, []) id name enc payload safe = .ok ((s', log), none)) :
    ¬ badRequest name enc payload safe ∧
    written log = requestType enc :: (id ++ UInt8.ofNat name.length :: (name ++ padFor enc name ++ payload)) := by
  by_cases hb : badRequest name enc payload safe
  · obtain ⟨err, he⟩ := writeMsgRequest_bad (observed w) (s, []) id name enc payload safe hb
    rw [he] at h
    exact absurd h (closeWith_ne_none _ _ _ _ _)
  · obtain ⟨parts, hp, hf⟩ := writeMsgRequest_good (observed w) (s, []) id name enc payload safe hb
    rw [hp] at h
    exact ⟨hb, (runParts_written _ _ _ _ _ h).trans hf⟩

theorem signal_accepted (w : Writer σ) (s s' : σ) (log : List Event) (name : Bytes) (enc : Encoding)
    (payload : Bytes) (safe : Bool)
    (h : writeMsgSignal (observed w) (s, []) name enc payload safe = .ok ((s', log), none)) :
    ¬ badSignal name enc payload safe ∧
    written log = signalType enc :: UInt8.ofNat name.length :: (name ++ padFor enc name ++ payload) := by
  by_cases hb : badSignal name enc payload safe
  · obtain ⟨err, he⟩ := writeMsgSignal_bad (observed w) (s, []) name enc payload safe hb
    rw [he] at h
    exact absurd h (closeWith_ne_none _ _ _ _ _)
  · obtain ⟨parts, hp, hf⟩ := writeMsgSignal_good (observed w) (s, []) name enc payload safe hb
    rw [hp] at h
    exact ⟨hb, (runParts_written _ _ _ _ _ h).trans hf⟩

theorem reply_accepted (w : Writer σ) (s s' : σ) (log : List Event) (id : Bytes) (enc : Encoding)
    (payload : Bytes)
    (h : writeMsgReply (observed w) (s, []) id enc payload = .ok ((s', log), none)) :
    ¬ (enc = encUtf16 ∧ payload.length % 2 ≠ 0) ∧
    written log = replyType enc :: (id ++ (if enc = 2 then [0] else []) ++ payload) := by
  by_cases hb : enc = encUtf16 ∧ payload.length % 2 ≠ 0
  · obtain ⟨err, he⟩ := writeMsgReply_bad (observed w) (s, []) id enc payload hb
    rw [he] at h
    exact absurd h (closeWith_ne_none _ _ _ _ _)
  · obtain ⟨parts, hp, hf⟩ := writeMsgReply_good (observed w) (s, []) id enc payload hb
    rw [hp] at h
    exact ⟨hb, (runParts_written _ _ _ _ _ h).trans hf⟩

theorem error_accepted (w : Writer σ) (s s' : σ) (log : List Event) (id code text : Bytes)
    (h : writeMsgReplyError (observed w) (s, []) id code text true = .ok ((s', log), none)) :
    ¬ badErrorReply code ∧
    written log = 0 :: (id ++ UInt8.ofNat code.length :: (code ++ text)) := by
  by_cases hb : badErrorReply code
  · obtain ⟨err, he⟩ := writeMsgReplyError_bad (observed w) (s, []) id code text hb
    rw [he] at h
    exact absurd h (closeWith_ne_none _ _ _ _ _)
  · have hl : code.length ≤ 255 := by
      unfold badErrorReply at hb; push Not at hb; omega
    obtain ⟨parts, hp, hf⟩ := writeMsgReplyError_good (observed w) (s, []) id code text true (fun _ => hb) hl
    rw [hp] at h
    exact ⟨hb, (runParts_written _ _ _ _ _ h).trans hf⟩

end Webwire
