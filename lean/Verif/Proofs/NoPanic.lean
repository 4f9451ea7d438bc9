import Verif.Proofs.Parse
import Mathlib.Tactic.Common

/-! Helper lemmas: no parser runs out of bounds, whatever the message object held before. -/

set_option autoImplicit false

namespace Webwire

theorem idx_ok' (a : Bytes) (o l i : Nat) (h1 : i < l) (h2 : o + i < a.length) :
    Slice.idx ⟨a, o, l⟩ i = .ok (a.getD (o + i) 0) := by
  simp [Slice.idx, h1, h2]

theorem data_ok (m : Msg) (h : m.len ≤ m.buf.length) : m.data = .ok ⟨m.buf, 0, m.len⟩ := by
  unfold Msg.data
  rw [sub_ok _ _ _ _ _ (by omega) (by omega)]; simp

theorem readIdent_ok (m : Msg) (a : Bytes) (l : Nat) (h : 9 ≤ a.length) :
    m.readIdent ⟨a, 0, l⟩ = .ok { m with identBytes := .buf 1 8, ident := goCopy m.ident ((a.drop 1).take 8) } := by
  unfold Msg.readIdent
  rw [sub_ok _ _ _ _ _ (by omega) (by omega)]
  rfl

theorem leUint32_ok (b : Bytes) (h : b.length = 4) : ∃ n, leUint32 b = .ok n := by
  match b, h with
  | [a, b, c, d], _ => exact ⟨_, rfl⟩

/-- The parser returns and keeps buffer and length. -/
def Returns (p : Msg → ParseRes) : Prop :=
  ∀ m, m.len ≤ m.buf.length → ∃ m' e, p m = .ok (m', e) ∧ m'.buf = m.buf ∧ m'.len = m.len

local macro "done" : tactic => `(tactic| exact ⟨_, _, rfl, rfl, rfl⟩)

theorem returns_heartbeat : Returns parseHeartbeat := by
  intro m h; unfold parseHeartbeat; split <;> done

theorem returns_sessionClosed : Returns parseSessionClosed := by
  intro m h; unfold parseSessionClosed; split <;> done

theorem returns_sessionCreated : Returns parseSessionCreated := by
  intro m h; unfold parseSessionCreated MinLenNotifySessionCreated
  split
  · done
  · rw [data_ok m h]; simp only [bind, Except.bind]; rw [tail_ok _ _ _ _ (by omega)]; done

theorem returns_closeSession : Returns parseCloseSession := by
  intro m h; unfold parseCloseSession MinLenDoCloseSession
  split
  · done
  · rw [data_ok m h]; simp only [bind, Except.bind]; rw [readIdent_ok _ _ _ (by omega)]; done

theorem returns_special : Returns parseSpecialReplyMessage := by
  intro m h; unfold parseSpecialReplyMessage
  split
  · done
  · rw [data_ok m h]; simp only [bind, Except.bind]; rw [readIdent_ok _ _ _ (by omega)]; done

theorem returns_restoreSession : Returns parseRestoreSession := by
  intro m h; unfold parseRestoreSession MinLenRequestRestoreSession
  split
  · done
  · rw [data_ok m h]; simp only [bind, Except.bind]; rw [readIdent_ok _ _ _ (by omega)]
    simp only; rw [tail_ok _ _ _ _ (by omega)]; done

theorem returns_reply : Returns parseReply := by
  intro m h; unfold parseReply MinLenReply
  split
  · done
  · rw [data_ok m h]; simp only [bind, Except.bind]; rw [readIdent_ok _ _ _ (by omega)]
    simp only
    split
    · done
    · rw [tail_ok _ _ _ _ (by omega)]; done

theorem returns_reply16 : Returns parseReplyUtf16 := by
  intro m h; unfold parseReplyUtf16 MinLenReplyUtf16
  split
  · done
  split
  · done
  · rw [data_ok m h]; simp only [bind, Except.bind]; rw [readIdent_ok _ _ _ (by omega)]
    simp only
    split
    · done
    · rw [tail_ok _ _ _ _ (by omega)]; done

theorem returns_errorReply : Returns parseErrorReply := by
  intro m h; unfold parseErrorReply MinLenReplyError
  split
  · done
  · rw [data_ok m h]; simp only [bind, Except.bind]; rw [readIdent_ok _ _ _ (by omega)]
    simp only; rw [sub_ok _ _ _ _ _ (by omega) (by omega)]
    simp only; rw [idx_ok' _ _ _ _ (by omega) (by omega)]
    simp only
    split
    · done
    split
    · done
    · rw [sub_ok _ _ _ _ _ (by omega) (by omega)]
      simp only; rw [tail_ok _ _ _ _ (by omega)]; done

theorem returns_signal : Returns parseSignal := by
  intro m h; unfold parseSignal MinLenSignal
  split
  · done
  · rw [data_ok m h]; simp only [bind, Except.bind]; rw [idx_ok' _ _ _ _ (by omega) (by omega)]
    simp only
    split
    · done
    split
    · rw [sub_ok _ _ _ _ _ (by omega) (by omega)]
      simp only; rw [tail_ok _ _ _ _ (by omega)]; done
    · rw [tail_ok _ _ _ _ (by omega)]; done

theorem returns_signal16 : Returns parseSignalUtf16 := by
  intro m h; unfold parseSignalUtf16 MinLenSignalUtf16
  split
  · done
  split
  · done
  · rw [data_ok m h]; simp only [bind, Except.bind]; rw [idx_ok' _ _ _ _ (by omega) (by omega)]
    simp only
    generalize (m.buf.getD (0 + 1) 0).toNat = n
    have e1 : (if n % 2 ≠ 0 then 4 + n + 1 else 4 + n) = 4 + n + n % 2 := by split_ifs <;> omega
    have e2 : (if n % 2 ≠ 0 then 2 + n + 1 else 2 + n) = 2 + n + n % 2 := by split_ifs <;> omega
    rw [e1, e2]
    split
    · done
    split
    · rw [sub_ok _ _ _ _ _ (by omega) (by omega)]
      simp only; rw [tail_ok _ _ _ _ (by omega)]; done
    · rw [tail_ok _ _ _ _ (by omega)]; done

theorem returns_request : Returns parseRequest := by
  intro m h; unfold parseRequest MinLenRequest
  split
  · done
  · rw [data_ok m h]; simp only [bind, Except.bind]; rw [readIdent_ok _ _ _ (by omega)]
    simp only; rw [idx_ok' _ _ _ _ (by omega) (by omega)]
    simp only
    split
    · split
      · done
      · rw [sub_ok _ _ _ _ _ (by omega) (by omega)]
        simp only
        split
        · rw [tail_ok _ _ _ _ (by omega)]; done
        · done
    · rw [tail_ok _ _ _ _ (by omega)]; done

theorem returns_request16 : Returns parseRequestUtf16 := by
  intro m h; unfold parseRequestUtf16 MinLenRequestUtf16
  split
  · done
  split
  · done
  · rw [data_ok m h]; simp only [bind, Except.bind]; rw [readIdent_ok _ _ _ (by omega)]
    simp only; rw [idx_ok' _ _ _ _ (by omega) (by omega)]
    simp only
    generalize (m.buf.getD (0 + 9) 0).toNat = n
    by_cases h3 : n > 0
    · simp only [if_pos h3]
      by_cases h4 : m.len > 10 + n ∧ n % 2 ≠ 0
      · simp only [if_pos h4]
        split
        · done
        · rw [sub_ok _ _ _ _ _ (by omega) (by omega)]
          simp only
          split
          · rw [tail_ok _ _ _ _ (by omega)]; done
          · done
      · simp only [if_neg h4]
        split
        · done
        · rw [sub_ok _ _ _ _ _ (by omega) (by omega)]
          simp only
          split
          · rw [tail_ok _ _ _ _ (by omega)]; done
          · done
    · rw [if_neg h3, tail_ok _ _ _ _ (by omega)]; done

theorem returns_acceptConf : Returns parseAcceptConf := by
  intro m h; unfold parseAcceptConf MinLenAcceptConf
  split
  · done
  rename_i hL
  have s1 : Slice.sub ⟨m.buf, 0, m.len⟩ 1 2 = .ok ⟨m.buf, 1, 1⟩ :=
    sub_ok _ _ _ _ _ (by omega) (by omega)
  have s2 : Slice.sub ⟨m.buf, 0, m.len⟩ 2 3 = .ok ⟨m.buf, 2, 1⟩ :=
    sub_ok _ _ _ _ _ (by omega) (by omega)
  have s3 : Slice.sub ⟨m.buf, 0, m.len⟩ 3 7 = .ok ⟨m.buf, 3, 4⟩ :=
    sub_ok _ _ _ _ _ (by omega) (by omega)
  have s4 : Slice.sub ⟨m.buf, 0, m.len⟩ 7 11 = .ok ⟨m.buf, 7, 4⟩ :=
    sub_ok _ _ _ _ _ (by omega) (by omega)
  obtain ⟨n1, h1⟩ := leUint32_ok ((m.buf.drop 3).take 4) (by simp; omega)
  obtain ⟨n2, h2⟩ := leUint32_ok ((m.buf.drop 7).take 4) (by simp; omega)
  rw [data_ok m h]
  simp only [bind, Except.bind, s1, s2, s3, s4, Slice.view, h1, h2,
    idx_ok' m.buf 1 1 0 (by omega) (by omega), idx_ok' m.buf 2 1 0 (by omega) (by omega)]
  split
  · rw [tail_ok _ _ _ _ (by omega)]; done
  · done

theorem parserFor_returns (t : UInt8) (p) (enc) (h : parserFor t = some (p, enc)) : Returns p := by
  by_cases ht : t ∈ Spec.messageTypes
  · simp only [Spec.messageTypes, List.mem_cons, List.not_mem_nil, or_false] at ht
    rcases ht with rfl | rfl | rfl | rfl | rfl | rfl | rfl | rfl | rfl | rfl | rfl | rfl | rfl | rfl | rfl |
      rfl | rfl | rfl | rfl | rfl | rfl <;> cases h
    · exact returns_errorReply
    · exact returns_special
    · exact returns_special
    · exact returns_special
    · exact returns_special
    · exact returns_special
    · exact returns_sessionCreated
    · exact returns_sessionClosed
    · exact returns_acceptConf
    · exact returns_closeSession
    · exact returns_restoreSession
    · exact returns_heartbeat
    · exact returns_signal
    · exact returns_signal
    · exact returns_signal16
    · exact returns_request
    · exact returns_request
    · exact returns_request16
    · exact returns_reply
    · exact returns_reply
    · exact returns_reply16
  · rw [parserFor_none t ht] at h; cases h

theorem parse_returns (m : Msg) (h : m.len ≤ m.buf.length) :
    ∃ m' tp e, m.parse = .ok (m', tp, e) ∧ m'.buf = m.buf ∧ m'.len = m.len := by
  unfold Msg.parse
  by_cases he : m.isEmpty = true
  · rw [if_pos he]; exact ⟨_, _, _, rfl, rfl, rfl⟩
  rw [if_neg he]
  have hl : 0 < m.len := by simp [Msg.isEmpty] at he; omega
  rw [sub_ok _ _ _ _ _ (by omega) (by omega)]
  simp only [bind, Except.bind]
  rw [idx_ok' _ _ _ _ (by omega) (by omega)]
  simp only
  split
  · exact ⟨_, _, _, rfl, rfl, rfl⟩
  next p enc hp =>
    obtain ⟨m', e, h1, h2, h3⟩ := parserFor_returns _ p enc hp m h
    rw [h1]
    exact ⟨_, _, _, rfl, h2, h3⟩

theorem readBytes_returns (m : Msg) (bs : Bytes) :
    ∃ m' tp e, m.readBytes bs = .ok (m', tp, e) := by
  by_cases h1 : bs = []
  · subst h1; exact ⟨_, _, _, rfl⟩
  by_cases h2 : bs.length ≤ m.buf.length
  · rw [readBytes_eq h1 h2]
    obtain ⟨m', tp, e, h, -⟩ := parse_returns { m with buf := goCopy m.buf bs, len := bs.length }
      (by simp [goCopy_le _ _ h2])
    exact ⟨_, _, _, h⟩
  · unfold Msg.readBytes
    have : 0 < bs.length := List.length_pos_iff.mpr h1
    rw [if_neg (by omega), if_pos (by omega)]
    exact ⟨_, _, _, rfl⟩

end Webwire
