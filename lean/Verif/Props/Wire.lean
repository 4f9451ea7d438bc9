import Verif.Proofs.Roundtrip
import Verif.Proofs.NoPanic
import Verif.Model.ConnSignal

/-!
# Properties C01 - C13: the wire format

`observed w` is an arbitrary writer recording the calls it receives, `written log` the bytes it was handed;
`Clean m` is a message object as the pool hands it out, with an arbitrary buffer content.
-/

set_option autoImplicit false

namespace Webwire
open Spec

variable {σ : Type}

/-! ## C01 -/

/-- C01: whatever request `WriteMsgRequest` accepts is parsed back to the same identifier, name, payload and
encoding, whatever writer carried it and whatever an earlier message left in the receiver's buffer. -/
theorem C01_request_roundtrip (w : Writer σ) (s s' : σ) (log : List Event)
    (id name : Bytes) (enc : Encoding) (payload : Bytes) (safe : Bool) (hid : id.length = 8)
    (hw : writeMsgRequest (observed w) (s, []) id name enc payload safe = .ok ((s', log), none))
    (m : Msg) (hm : Clean m) (hfit : (written log).length ≤ m.buf.length) :
    ∃ m', m.readBytes (written log) = .ok (m', true, none) ∧
      Shows m' (typeByte 127 enc) id name (canonEnc enc) payload ∧ m'.identBytes.view m'.buf = id ∧
      m'.requiresReply = true := by
  obtain ⟨hb, hwr⟩ := request_accepted _ _ _ _ _ _ _ _ _ hw
  have hg := request_grammar id name payload enc safe hid hb
  rw [← hwr] at hg
  obtain ⟨m', h1, h2, h3, h4⟩ := read_shows hm hfit hg
  simp only [enc_request] at h2
  rw [requestType_eq] at h2
  refine ⟨m', h1, h2, h4 ?_, ?_⟩
  · simp only [requestType, noIdentTypes]; split_ifs <;> decide
  · rw [Msg.requiresReply, h2.msgType, typeByte]; split_ifs <;> rfl

/-- C01, non-vacuity: a UTF16 request with a name of odd length is accepted, and a message with a used buffer
can hold it. -/
example : ∃ log, writeMsgRequest (observed pipe) (([], []), []) [1,2,3,4,5,6,7,8] [97,98,99] 2 [1,0,2,0] true
    = .ok ((([], [[129,1,2,3,4,5,6,7,8,3,97,98,99,0,1,0,2,0]]), log), none) ∧ (written log).length = 18 ∧
    Clean { newMessage 32 with buf := List.replicate 32 7 } :=
  ⟨_, rfl, rfl, ⟨rfl, rfl, rfl, rfl, rfl, rfl⟩⟩

/-! ## C02 -/

/-- C02, full statement: whatever signal `WriteMsgSignal` accepts (and `Connection.Signal` lets through, i.e.
not both empty) is parsed back to the same name, payload and encoding. -/
def C02_full : Prop :=
  ∀ (name : Bytes) (enc : Encoding) (payload : Bytes) (safe : Bool) (out : Bytes),
    (name ≠ [] ∨ payload ≠ []) →
    writeMsgSignal pipe ([], []) name enc payload safe = .ok (([], [out]), none) →
    ∀ m : Msg, Clean m → out.length ≤ m.buf.length →
      ∃ m', m.readBytes out = .ok (m', true, none) ∧
        Shows m' (typeByte 63 enc) [0,0,0,0,0,0,0,0] name (canonEnc enc) payload

/-- C02 is violated by the code: a UTF16 signal with a name and no payload is written but refused by the
parser (writeMsgSignal.go accepts it, parseSignalUtf16.go:29,41 demands two payload bytes). -/
theorem C02_signal_roundtrip_violated : ¬ C02_full := by
  intro h
  obtain ⟨m', hm, -⟩ := h [97, 98] 2 [] true [65, 2, 97, 98] (by simp) rfl (newMessage 32)
    ⟨rfl, rfl, rfl, rfl, rfl, rfl⟩ (by decide)
  simp [Msg.readBytes, newMessage, goCopy, Msg.isEmpty, Msg.parse, Slice.sub, Slice.idx, bind, Except.bind,
    parserFor, parseSignalUtf16, Msg.data, MinLenSignalUtf16, MsgAcceptConf, MsgHeartbeat, MsgReplyError,
    MsgNotifySessionCreated, MsgNotifySessionClosed, MsgRequestCloseSession, MsgSignalBinary, MsgSignalUtf8,
    MsgSignalUtf16, pure, Except.pure] at hm

/-- C02 for all signals except UTF16 signals without payload. Missing compared to `C02_full`: UTF16 signals
with a name and no payload, for which it is false. -/
theorem C02_signal_roundtrip_partial (w : Writer σ) (s s' : σ) (log : List Event)
    (name : Bytes) (enc : Encoding) (payload : Bytes) (safe : Bool)
    (hne : name ≠ [] ∨ payload ≠ []) (h16 : enc = 2 → payload ≠ [])
    (hw : writeMsgSignal (observed w) (s, []) name enc payload safe = .ok ((s', log), none))
    (m : Msg) (hm : Clean m) (hfit : (written log).length ≤ m.buf.length) :
    ∃ m', m.readBytes (written log) = .ok (m', true, none) ∧
      Shows m' (typeByte 63 enc) [0,0,0,0,0,0,0,0] name (canonEnc enc) payload ∧
      m'.requiresReply = false := by
  obtain ⟨hb, hwr⟩ := signal_accepted _ _ _ _ _ _ _ _ hw
  have hg := signal_grammar name payload enc safe hb hne h16
  rw [← hwr] at hg
  obtain ⟨m', h1, h2, h3, h4⟩ := read_shows hm hfit hg
  simp only [enc_signal] at h2
  rw [signalType_eq] at h2
  refine ⟨m', h1, h2, ?_⟩
  rw [Msg.requiresReply, h2.msgType, typeByte]; split_ifs <;> rfl

/-- C02, exact boundary of the defect: a UTF16 signal without payload is *always* refused by the receiver. -/
theorem C02_utf16_signal_without_payload_refused (w : Writer σ) (s s' : σ) (log : List Event)
    (name : Bytes) (safe : Bool)
    (hw : writeMsgSignal (observed w) (s, []) name 2 [] safe = .ok ((s', log), none))
    (m : Msg) (hm : Clean m) (hfit : (written log).length ≤ m.buf.length) :
    ∃ m' tp e, m.readBytes (written log) = .ok (m', tp, e) ∧ e ≠ none := by
  obtain ⟨hb, hwr⟩ := signal_accepted _ _ _ _ _ _ _ _ hw
  have hne : written log ≠ [] := by rw [hwr]; simp
  obtain ⟨m', tp, e, h1, -, -, -, -, h2⟩ := readBytes_clean hm hne hfit
  refine ⟨m', tp, e, h1, ?_⟩
  cases hd : decode (written log) with
  | none => rwa [hd] at h2
  | some v =>
    exfalso
    have hg := grammar_of_decode hd hne
    have hl : name.length ≤ 255 := by
      unfold badSignal at hb; push Not at hb; omega
    have hn := ofNat_toNat_le name.length hl
    rw [hwr] at hd
    have hp : (padFor 2 name).length = name.length % 2 := by
      unfold padFor
      split_ifs with h
      · simp; omega
      · have : ¬ name.length % 2 ≠ 0 := fun h' => h ⟨rfl, h'⟩
        simp; omega
    have e1 : byteAt (signalType 2 :: UInt8.ofNat name.length :: (name ++ padFor 2 name ++ [])) 1
      = UInt8.ofNat name.length := rfl
    have e0 : byteAt (signalType 2 :: UInt8.ofNat name.length :: (name ++ padFor 2 name ++ [])) 0 = 65 := rfl
    simp only [decode, e0, e1, hn] at hd
    simp [hp] at hd
    omega

/-- C02, non-vacuity: an odd-named UTF16 signal with payload. -/
example : ∃ log, writeMsgSignal (observed pipe) (([], []), []) [97] 2 [1,0] true
    = .ok ((([], [[65,1,97,0,1,0]]), log), none) := ⟨_, rfl⟩

/-! ## C03 -/

/-- C03: whatever reply `WriteMsgReply` accepts, including an empty one, is parsed back to the same request
identifier, payload and encoding. -/
theorem C03_reply_roundtrip (w : Writer σ) (s s' : σ) (log : List Event)
    (id : Bytes) (enc : Encoding) (payload : Bytes) (hid : id.length = 8)
    (hw : writeMsgReply (observed w) (s, []) id enc payload = .ok ((s', log), none))
    (m : Msg) (hm : Clean m) (hfit : (written log).length ≤ m.buf.length) :
    ∃ m', m.readBytes (written log) = .ok (m', true, none) ∧
      Shows m' (typeByte 191 enc) id [] (canonEnc enc) payload := by
  obtain ⟨hb, hwr⟩ := reply_accepted _ _ _ _ _ _ _ hw
  have hg := reply_grammar id payload enc hid hb
  rw [← hwr] at hg
  obtain ⟨m', h1, h2, h3, h4⟩ := read_shows hm hfit hg
  simp only [enc_reply] at h2
  rw [replyType_eq] at h2
  exact ⟨m', h1, h2⟩

/-- C03, non-vacuity: an empty UTF16 reply. -/
example : ∃ log, writeMsgReply (observed pipe) (([], []), []) [1,2,3,4,5,6,7,8] 2 []
    = .ok ((([], [[193,1,2,3,4,5,6,7,8,0]]), log), none) := ⟨_, rfl⟩

/-! ## C04 -/

/-- C04, full statement: an error reply accepted in safe mode is parsed back to the same identifier, code and
text, and the text is reported as UTF8. -/
def C04_full : Prop :=
  ∀ (id code text out : Bytes), id.length = 8 →
    writeMsgReplyError pipe ([], []) id code text true = .ok (([], [out]), none) →
    ∀ m : Msg, Clean m → out.length ≤ m.buf.length →
      ∃ m', m.readBytes out = .ok (m', true, none) ∧ Shows m' 0 id code (documentedEncoding 0) text

/-- C04 for everything but the encoding. Missing compared to `C04_full`: the text is reported as UTF8; it is
reported as binary. -/
theorem C04_error_reply_roundtrip_partial (w : Writer σ) (s s' : σ) (log : List Event)
    (id code text : Bytes) (hid : id.length = 8)
    (hw : writeMsgReplyError (observed w) (s, []) id code text true = .ok ((s', log), none))
    (m : Msg) (hm : Clean m) (hfit : (written log).length ≤ m.buf.length) :
    ∃ m', m.readBytes (written log) = .ok (m', true, none) ∧ Shows m' 0 id code 0 text := by
  obtain ⟨hb, hwr⟩ := error_accepted _ _ _ _ _ _ _ hw
  have h1 : code ≠ [] := by
    rintro rfl; exact hb (.inl (by simp))
  have h2 : code.length ≤ 255 := by
    unfold badErrorReply at hb; push Not at hb; omega
  have hg := error_grammar id code text hid h1 h2
  rw [← hwr] at hg
  obtain ⟨m', h1, h2, h3, h4⟩ := read_shows hm hfit hg
  exact ⟨m', h1, h2⟩

/-- C04, non-vacuity. -/
example : ∃ log, writeMsgReplyError (observed pipe) (([], []), []) [1,2,3,4,5,6,7,8] [69,49] [111,104] true
    = .ok ((([], [[0,1,2,3,4,5,6,7,8,2,69,49,111,104]]), log), none) := ⟨_, rfl⟩

/-- C04 is violated by the code: `parse` (parse.go:100) overwrites the encoding set by `parseErrorReply`
(parseErrorReply.go:50). -/
theorem C04_error_reply_encoding_violated : ¬ C04_full := by
  intro h
  have hc : Clean (newMessage 32) := ⟨rfl, rfl, rfl, rfl, rfl, rfl⟩
  have hw : ∃ log, writeMsgReplyError (observed pipe) (([], []), []) [1,2,3,4,5,6,7,8] [69] [111] true
    = .ok ((([], [[0,1,2,3,4,5,6,7,8,1,69,111]]), log), none) ∧
      written log = [0,1,2,3,4,5,6,7,8,1,69,111] := ⟨_, rfl, rfl⟩
  obtain ⟨log, hlog, hwr⟩ := hw
  obtain ⟨m', h1, h2⟩ := h [1,2,3,4,5,6,7,8] [69] [111] [0,1,2,3,4,5,6,7,8,1,69,111] rfl rfl _ hc (by decide)
  obtain ⟨m'', h3, h4⟩ := C04_error_reply_roundtrip_partial pipe _ _ log [1,2,3,4,5,6,7,8] [69] [111] rfl hlog
    (newMessage 32) hc (by rw [hwr]; decide)
  rw [hwr, h1] at h3
  simp only [Except.ok.injEq, Prod.mk.injEq, and_true] at h3
  subst h3
  have := h2.encoding.symm.trans h4.encoding
  simp [documentedEncoding] at this

/-! ## C05 -/

/-- C05: special replies (shutdown, internal error, session not found, max connections, sessions disabled)
round-trip. -/
theorem C05_special_reply_roundtrip (w : Writer σ) (s s' : σ) (log : List Event)
    (t : UInt8) (id : Bytes) (hid : id.length = 8)
    (hw : writeMsgSpecialRequestReply (observed w) (s, []) t id = .ok ((s', log), none))
    (m : Msg) (hm : Clean m) (hfit : (written log).length ≤ m.buf.length) :
    t ∈ [1, 2, 3, 4, 5] ∧
    ∃ m', m.readBytes (written log) = .ok (m', true, none) ∧ Shows m' t id [] 0 [] := by
  by_cases ht : t ∈ [1, 2, 3, 4, 5]
  · refine ⟨ht, ?_⟩
    rw [writeMsgSpecial_good _ _ _ _ ht] at hw
    have hwr := runParts_written _ _ _ _ _ hw
    have hg := Grammar.special t id [] ht hid
    have e : written log = t :: (id ++ []) := by rw [hwr]; simp
    rw [← e] at hg
    obtain ⟨m', h1, h2, -, -⟩ := read_shows hm hfit hg
    refine ⟨m', h1, ?_⟩
    have : parserEncoding t = 0 := by
      simp only [List.mem_cons, List.not_mem_nil, or_false] at ht
      rcases ht with rfl | rfl | rfl | rfl | rfl <;> rfl
    simp only [this] at h2
    exact h2
  · obtain ⟨err, he⟩ := writeMsgSpecial_bad (observed w) (s, []) t id ht
    rw [he] at hw
    exact absurd hw (closeWith_ne_none _ _ _ _ _)

/-- C05: a session restoration request (with a nonempty key) round-trips. -/
theorem C05_restore_session_roundtrip (w : Writer σ) (s s' : σ) (log : List Event)
    (id key : Bytes) (hid : id.length = 8) (hk : key ≠ [])
    (hw : writeMsgNamelessRequest (observed w) (s, []) 32 id key = .ok ((s', log), none))
    (m : Msg) (hm : Clean m) (hfit : (written log).length ≤ m.buf.length) :
    ∃ m', m.readBytes (written log) = .ok (m', true, none) ∧ Shows m' 32 id [] 0 key ∧
      m'.identBytes.view m'.buf = id ∧ m'.requiresReply = true := by
  obtain ⟨parts, hp, hf⟩ := writeMsgNameless_good (observed w) (s, []) 32 id key (by simp)
  rw [hp] at hw
  have hg := Grammar.restoreSession id key hid hk
  rw [← hf, ← runParts_written _ _ _ _ _ hw] at hg
  obtain ⟨m', h1, h2, -, h4⟩ := read_shows hm hfit hg
  exact ⟨m', h1, h2, h4 (by simp [noIdentTypes]), by rw [Msg.requiresReply, h2.msgType]; rfl⟩

/-- C05: a session closure request round-trips. -/
theorem C05_close_session_roundtrip (w : Writer σ) (s s' : σ) (log : List Event)
    (id : Bytes) (hid : id.length = 8)
    (hw : writeMsgNamelessRequest (observed w) (s, []) 31 id [] = .ok ((s', log), none))
    (m : Msg) (hm : Clean m) (hfit : (written log).length ≤ m.buf.length) :
    ∃ m', m.readBytes (written log) = .ok (m', true, none) ∧ Shows m' 31 id [] 0 [] ∧
      m'.identBytes.view m'.buf = id ∧ m'.requiresReply = true := by
  obtain ⟨parts, hp, hf⟩ := writeMsgNameless_good (observed w) (s, []) 31 id [] (by simp)
  rw [hp] at hw
  have hg := Grammar.closeSession id hid
  rw [List.append_nil] at hf
  rw [← hf, ← runParts_written _ _ _ _ _ hw] at hg
  obtain ⟨m', h1, h2, -, h4⟩ := read_shows hm hfit hg
  exact ⟨m', h1, h2, h4 (by simp [noIdentTypes]), by rw [Msg.requiresReply, h2.msgType]; rfl⟩

/-- C05: the session-created notification round-trips (the session object is never empty). -/
theorem C05_session_created_roundtrip (w : Writer σ) (s s' : σ) (log : List Event)
    (info : Bytes) (hi : info ≠ [])
    (hw : writeMsgNotifySessionCreated (observed w) (s, []) info = .ok ((s', log), none))
    (m : Msg) (hm : Clean m) (hfit : (written log).length ≤ m.buf.length) :
    ∃ m', m.readBytes (written log) = .ok (m', true, none) ∧
      Shows m' 21 [0,0,0,0,0,0,0,0] [] 0 info := by
  have hw' : runParts (observed w) (s, []) [[21], info] = .ok ((s', log), none) := hw
  have hg := Grammar.sessionCreated info hi
  have e : written log = 21 :: info := by rw [runParts_written _ _ _ _ _ hw']; simp
  rw [← e] at hg
  obtain ⟨m', h1, h2, -, -⟩ := read_shows hm hfit hg
  exact ⟨m', h1, h2⟩

/-- C05: session-closed notifications and heartbeats round-trip. -/
theorem C05_session_closed_and_heartbeat_roundtrip (w : Writer σ) (s s' : σ) (log : List Event)
    (hw : writeMsgNotifySessionClosed (observed w) (s, []) = .ok ((s', log), none) ∨
          writeMsgHeartbeat (observed w) (s, []) = .ok ((s', log), none))
    (m : Msg) (hm : Clean m) (hfit : (written log).length ≤ m.buf.length) :
    ∃ m', m.readBytes (written log) = .ok (m', true, none) ∧
      ((written log = [22] ∧ Shows m' 22 [0,0,0,0,0,0,0,0] [] 0 []) ∨
       (written log = [33] ∧ Shows m' 33 [0,0,0,0,0,0,0,0] [] 0 [])) ∧
      (writeMsgNotifySessionClosed (observed w) (s, []) = .ok ((s', log), none) → written log = [22]) ∧
      (writeMsgHeartbeat (observed w) (s, []) = .ok ((s', log), none) → written log = [33]) := by
  have key1 : writeMsgNotifySessionClosed (observed w) (s, []) = .ok ((s', log), none) →
      written log = [22] := fun h => by
    have hw' : runParts (observed w) (s, []) [[22]] = .ok ((s', log), none) := h
    rw [runParts_written _ _ _ _ _ hw']; rfl
  have key2 : writeMsgHeartbeat (observed w) (s, []) = .ok ((s', log), none) →
      written log = [33] := fun h => by
    have hw' : runParts (observed w) (s, []) [[33]] = .ok ((s', log), none) := h
    rw [runParts_written _ _ _ _ _ hw']; rfl
  rcases hw with h | h
  · have e := key1 h
    have hg := Grammar.sessionClosed
    rw [← e] at hg
    obtain ⟨m', h1, h2, -, -⟩ := read_shows hm hfit hg
    exact ⟨m', h1, .inl ⟨e, h2⟩, key1, key2⟩
  · have e := key2 h
    have hg := Grammar.heartbeat
    rw [← e] at hg
    obtain ⟨m', h1, h2, -, -⟩ := read_shows hm hfit hg
    exact ⟨m', h1, .inr ⟨e, h2⟩, key1, key2⟩

/-- C05, non-vacuity. -/
example : (∃ log, writeMsgSpecialRequestReply (observed pipe) (([], []), []) 4 [1,2,3,4,5,6,7,8]
      = .ok ((([], [[4,1,2,3,4,5,6,7,8]]), log), none)) ∧
    (∃ log, writeMsgNamelessRequest (observed pipe) (([], []), []) 32 [1,2,3,4,5,6,7,8] [75]
      = .ok ((([], [[32,1,2,3,4,5,6,7,8,75]]), log), none)) ∧
    (∃ log, writeMsgNamelessRequest (observed pipe) (([], []), []) 31 [1,2,3,4,5,6,7,8] []
      = .ok ((([], [[31,1,2,3,4,5,6,7,8]]), log), none)) ∧
    (∃ log, writeMsgNotifySessionCreated (observed pipe) (([], []), []) [123,125]
      = .ok ((([], [[21,123,125]]), log), none)) ∧
    (∃ log, writeMsgHeartbeat (observed pipe) (([], []), []) = .ok ((([], [[33]]), log), none)) :=
  ⟨⟨_, rfl⟩, ⟨_, rfl⟩, ⟨_, rfl⟩, ⟨_, rfl⟩, ⟨_, rfl⟩⟩

end Webwire
