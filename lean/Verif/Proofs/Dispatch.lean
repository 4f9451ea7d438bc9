import Verif.Spec.Server
import Verif.Proofs.Handle
import Verif.Proofs.Roundtrip

/-! Helper lemmas: events caused by a message. -/

set_option autoImplicit false

namespace Webwire
open Spec

variable {ν υ : Type} {srv : Server ν υ}

/-- The hook calls of `handleMessage`, from the message object. -/
def hooksOf (w : World ν υ) (c : ConnId) (m : Msg) : List Ev :=
  if (w.conns c).isActive = false then []
  else if m.msgType ∈ [63, 64, 65] then
    [.onSignal c (m.name.view m.buf) m.payload.encoding (m.payload.data.view m.buf)]
  else if m.msgType ∈ [127, 128, 129] ∧ w.shutdown = false then
    [.onRequest c m.ident (m.name.view m.buf) m.payload.encoding (m.payload.data.view m.buf)]
  else []

theorem requiresReply_iff (m : Msg) : m.requiresReply = true ↔ asksReply m.msgType := by
  unfold Msg.requiresReply asksReply
  simp [MsgRequestCloseSession, MsgRequestRestoreSession, MsgRequestBinary, MsgRequestUtf8, MsgRequestUtf16, or_assoc]

theorem handleMessage_trace {w w' : World ν υ} {c : ConnId} {m : Msg} (h : handleMessage srv w c m = .ok w') :
    ∃ l, w'.trace = w.trace ++ hooksOf w c m ++ l ++ [.msgClose] ∧ ∀ e ∈ l, Plain e := by
  have fin : ∀ {w1 w2 : World ν υ} {pre : List Ev}, w1.trace = w.trace ++ pre → Grew w1 w2 →
      ∃ l, (releaseMsg w2).trace = w.trace ++ pre ++ l ++ [.msgClose] ∧ ∀ e ∈ l, Plain e := by
    rintro w1 w2 pre h1 ⟨l, h2, hl⟩
    exact ⟨l, by simp [releaseMsg, World.log, h2, h1], hl⟩
  rcases handleMessage_ok h with ⟨ht, rfl⟩ | ⟨hnh, w1, b, hr, hb⟩
  · have : hooksOf w c m = [] := by unfold hooksOf; rw [ht]; simp [MsgHeartbeat]
    rw [this]
    exact fin (by simp) (Grew.refl w)
  · rcases registerHandler_ok hr with ⟨ha, rfl, rfl⟩ | ⟨ha, _, ⟨hs, hq, rfl, hf⟩ | ⟨hns, rfl, rfl⟩⟩
    · have : hooksOf w1 c m = [] := by unfold hooksOf; rw [if_pos ha]
      rw [this]
      rcases hb with ⟨_, rfl⟩ | ⟨hc, _⟩
      · exact fin (by simp) (Grew.refl w1)
      · cases hc
    · have : hooksOf w c m = [] := by
        have hq' := (requiresReply_iff m).mp hq
        unfold hooksOf; rw [if_neg (by simp [ha]), hs]
        rw [if_neg, if_neg (by simp)]
        unfold asksReply at hq'
        intro hm
        simp only [List.mem_cons, List.not_mem_nil, or_false] at hm hq'
        rcases hm with hm | hm | hm <;> rw [hm] at hq' <;> revert hq' <;> decide
      rw [this]
      obtain ⟨net, net', e, _, _, rfl⟩ := failMsgShutdown_ok hf
      rcases hb with ⟨_, rfl⟩ | ⟨hc, _⟩
      · exact fin (w1 := slotTaken w c) (by simp [slotTaken, World.upd]) ⟨[.sent c], rfl, by simp [Plain]⟩
      · cases hc
    · rcases hb with ⟨hc, _⟩ | ⟨_, hb⟩
      · cases hc
      · rcases hb with ⟨ht, hh⟩ | ⟨ht, hh⟩ | ⟨ht, hh⟩ | ⟨ht, hh⟩ | ⟨⟨h1, h2, h3, h4⟩, w2, hd, rfl⟩
        · have : hooksOf w c m =
              [.onSignal c (m.name.view m.buf) m.payload.encoding (m.payload.data.view m.buf)] := by
            unfold hooksOf
            rw [if_neg (by simp [ha]), if_pos]
            simpa [MsgSignalBinary, MsgSignalUtf8, MsgSignalUtf16] using ht
          rw [this]
          obtain ⟨w2, w3, hr, hd, rfl⟩ := handleSignal_ok hh
          refine fin (w1 := { (registered w c).log (.onSignal c (m.name.view m.buf) m.payload.encoding
            (m.payload.data.view m.buf)) with user := (srv.hooks.onSignal (registered w c).user c m).1 }) rfl ?_
          exact (Quiet.runApis hr).grew.trans (Grew.deregisterHandler hd)
        · have hq : m.requiresReply = true := by
            rw [requiresReply_iff]; unfold asksReply
            simp only [MsgRequestBinary, MsgRequestUtf8, MsgRequestUtf16] at ht
            rcases ht with ht | ht | ht <;> simp [ht]
          have hsd : w.shutdown = false := by
            cases hsd : w.shutdown
            · rfl
            · exact absurd ⟨hsd, hq⟩ hns
          have : hooksOf w c m =
              [.onRequest c m.ident (m.name.view m.buf) m.payload.encoding (m.payload.data.view m.buf)] := by
            unfold hooksOf
            simp only [MsgRequestBinary, MsgRequestUtf8, MsgRequestUtf16] at ht
            rw [if_neg (by simp [ha]), if_neg, if_pos ⟨by simpa using ht, hsd⟩]
            rcases ht with ht | ht | ht <;> rw [ht] <;> decide
          rw [this]
          obtain ⟨w2, w3, w4, hr, hf, hd, rfl⟩ := handleRequest_ok hh
          refine fin (w1 := { (registered w c).log (.onRequest c m.ident (m.name.view m.buf) m.payload.encoding
            (m.payload.data.view m.buf)) with user := (srv.hooks.onRequest (registered w c).user c m).1 }) rfl ?_
          refine (Quiet.runApis hr).grew.trans (Grew.trans ?_ (Grew.deregisterHandler hd))
          rcases hf with ⟨_, hf⟩ | ⟨_, hf⟩
          · exact (Quiet.fulfillMsg hf).grew
          · exact (Quiet.failMsg hf).grew
        · have : hooksOf w c m = [] := by
            unfold hooksOf
            simp only [MsgRequestRestoreSession] at ht
            rw [if_neg (by simp [ha]), if_neg (by rw [ht]; decide), if_neg]
            rw [ht]; rintro ⟨hm, _⟩; revert hm; decide
          rw [this]
          obtain ⟨w3, hg, rfl⟩ := Grew.handleSessionRestore hh
          exact fin (w1 := registered w c) (by simp [registered, registerTask, World.upd]) hg
        · have : hooksOf w c m = [] := by
            unfold hooksOf
            simp only [MsgRequestCloseSession] at ht
            rw [if_neg (by simp [ha]), if_neg (by rw [ht]; decide), if_neg]
            rw [ht]; rintro ⟨hm, _⟩; revert hm; decide
          rw [this]
          obtain ⟨w3, hg, rfl⟩ := Grew.handleSessionClosure hh
          exact fin (w1 := registered w c) (by simp [registered, registerTask, World.upd]) hg
        · have : hooksOf w c m = [] := by
            unfold hooksOf
            rw [if_neg (by simp [ha]), if_neg, if_neg]
            · rintro ⟨hm, _⟩
              apply h2
              simpa [MsgRequestBinary, MsgRequestUtf8, MsgRequestUtf16] using hm
            · intro hm
              apply h1
              simpa [MsgSignalBinary, MsgSignalUtf8, MsgSignalUtf16] using hm
          rw [this]
          exact fin (w1 := registered w c) (by simp [registered, registerTask, World.upd])
            (Grew.deregisterHandler hd)

theorem clean_new (n : Nat) : Clean (newMessage n) := ⟨rfl, rfl, rfl, rfl, rfl, rfl⟩

theorem newMessage_buf (n : Nat) : (newMessage n).buf.length = n := by simp [newMessage]

theorem hooksOf_grammar {w : World ν υ} {c : ConnId} {m : Msg} {v : View} (hs : m.shown = v)
    (he : m.payload.encoding = parserEncoding v.msgType) :
    hooksOf w c m = expectedHooks (w.conns c).isActive w.shutdown c v := by
  have et : m.msgType = v.msgType := by rw [← hs]; rfl
  have en : m.name.view m.buf = v.name := by rw [← hs]; rfl
  have ep : m.payload.data.view m.buf = v.payload := by rw [← hs]; rfl
  have ei : m.ident = v.ident := by rw [← hs]; rfl
  unfold hooksOf expectedHooks
  rw [he, en, ep, ei]
  have e1 : v.msgType ∈ [63, 64, 65] → parserEncoding v.msgType = documentedEncoding v.msgType := by
    intro h
    simp only [List.mem_cons, List.not_mem_nil, or_false] at h
    rcases h with h | h | h <;> rw [h] <;> rfl
  have e2 : v.msgType ∈ [127, 128, 129] → parserEncoding v.msgType = documentedEncoding v.msgType := by
    intro h
    simp only [List.mem_cons, List.not_mem_nil, or_false] at h
    rcases h with h | h | h <;> rw [h] <;> rfl
  by_cases h1 : (w.conns c).isActive = false
  · rw [if_pos h1, if_pos h1]
  · rw [if_neg h1, if_neg h1]
    by_cases h2 : v.msgType ∈ [63, 64, 65]
    · rw [if_pos (by rw [et]; exact h2), if_pos h2, e1 h2]
    · rw [if_neg (by rw [et]; exact h2), if_neg h2]
      by_cases h3 : v.msgType ∈ [127, 128, 129] ∧ w.shutdown = false
      · rw [if_pos (by rw [et]; exact h3), if_pos h3, e2 h3.1]
      · rw [if_neg (by rw [et]; exact h3), if_neg h3]

/-- Receiving a well-formed message is handling the message it says. -/
theorem serve_grammar_any {c : ConnId} {bs : Bytes} {v : View}
    (hg : Grammar bs v) (hfit : bs.length ≤ srv.bufferSize.toNat) :
    ∃ m, m.shown = v ∧ m.payload.encoding = parserEncoding v.msgType ∧
      (v.msgType ∉ noIdentTypes → m.identifierBytes = v.ident) ∧ 0 < m.len ∧
      ∀ (w : World ν υ) (rest : List Incoming), serve srv w c (.data bs :: rest) = (do
        let w ← handleMessage srv w c m
        serve srv w c rest) := by
  obtain ⟨m, h1, h2, h3, h4, h5, h6⟩ := read_grammar (clean_new srv.bufferSize.toNat)
    (by rw [newMessage_buf]; exact hfit) hg
  refine ⟨m, h2, h3, fun h => (h6 h).2, ?_, ?_⟩
  · rw [h5]; exact List.length_pos_iff.mpr (grammar_ne_nil hg)
  · intro w rest
    conv => lhs; unfold serve
    rw [h1]
    simp [bind, Except.bind]

theorem serve_grammar {w : World ν υ} {c : ConnId} {bs : Bytes} {v : View} {rest : List Incoming}
    (hg : Grammar bs v) (hfit : bs.length ≤ srv.bufferSize.toNat) :
    ∃ m, m.shown = v ∧ m.payload.encoding = parserEncoding v.msgType ∧
      (v.msgType ∉ noIdentTypes → m.identifierBytes = v.ident) ∧ 0 < m.len ∧
      serve srv w c (.data bs :: rest) = (do
        let w ← handleMessage srv w c m
        serve srv w c rest) := by
  obtain ⟨m, h1, h2, h3, h4, h5⟩ := serve_grammar_any (srv := srv) (c := c) hg hfit
  exact ⟨m, h1, h2, h3, h4, h5 w rest⟩

/-- A well-formed message first, then the rest. -/
theorem serve_split {w w' : World ν υ} {c : ConnId} {bs : Bytes} {v : View} {rest : List Incoming}
    (hg : Grammar bs v) (hfit : bs.length ≤ srv.bufferSize.toNat)
    (h : serve srv w c (.data bs :: rest) = .ok w') :
    ∃ m w1, handleMessage srv w c m = .ok w1 ∧ serve srv w c [.data bs] = .ok w1 ∧ serve srv w1 c rest = .ok w' := by
  obtain ⟨m, h1, h2, h3, h4, h5⟩ := serve_grammar_any (srv := srv) (c := c) hg hfit
  rw [h5 w rest] at h
  obtain ⟨w1, h6, h⟩ := bind_ok h
  refine ⟨m, w1, h6, ?_, h⟩
  rw [h5 w [], h6]
  rfl

/-- Receiving anything else is a disconnection. -/
theorem serve_malformed {w : World ν υ} {c : ConnId} {bs : Bytes} {rest : List Incoming}
    (hg : bs.length ≤ srv.bufferSize.toNat → ¬ ∃ v, Grammar bs v) :
    serve srv w c (.data bs :: rest) = disconnect srv w c := by
  have key : ∃ m tp e, (newMessage srv.bufferSize.toNat).readBytes bs = .ok (m, tp, e) ∧
      (e ≠ none ∨ tp = false) := by
    by_cases hne : bs = []
    · subst hne
      exact ⟨_, _, _, rfl, .inr rfl⟩
    · by_cases hfit : bs.length ≤ srv.bufferSize.toNat
      · obtain ⟨m', tp, e, h1, -, -, -, -, h6⟩ := readBytes_clean (clean_new srv.bufferSize.toNat) hne
          (by rw [newMessage_buf]; exact hfit)
        refine ⟨m', tp, e, h1, .inl ?_⟩
        cases hd : decode bs with
        | none => rw [hd] at h6; exact h6
        | some v => exact absurd ⟨v, grammar_of_decode hd hne⟩ (hg hfit)
      · refine ⟨newMessage srv.bufferSize.toNat, false, ?_⟩
        unfold Msg.readBytes
        have := newMessage_buf srv.bufferSize.toNat
        rw [if_neg (by omega), if_pos (by omega)]
        exact ⟨_, rfl, .inr rfl⟩
  obtain ⟨m, tp, e, h1, h2⟩ := key
  unfold serve
  rw [h1]
  simp only [bind, Except.bind]
  rw [if_pos h2]

end Webwire
