import Verif.Props.Wire

/-!
# Properties C06 - C13: the wire format, continued
-/

set_option autoImplicit false

namespace Webwire
open Spec

variable {σ : Type}

/-! ## C06 -/

theorem tdiv_ms (x : Int) :
    x.tdiv 1000000 = if 0 ≤ x then x / 1000000 else -((-x) / 1000000) := by
  split_ifs with h
  · exact Int.tdiv_eq_ediv_of_nonneg h
  · rw [← Int.tdiv_eq_ediv_of_nonneg (by omega), Int.neg_tdiv, Int.neg_neg]

/-- C06: `NewAcceptConfMessage` fails exactly if the read timeout is at most -1ms or at least 2^32 ms. -/
theorem C06_acceptconf_fails_iff (c : ConfInput) :
    (∃ e, newAcceptConfMessage c = .error e) ↔
      c.readTimeout ≤ -1000000 ∨ c.readTimeout ≥ 4294967296 * 1000000 := by
  unfold newAcceptConfMessage
  dsimp only
  rw [tdiv_ms]
  by_cases h0 : 0 ≤ c.readTimeout
  · rw [if_pos h0]
    split_ifs <;> simp <;> omega
  · rw [if_neg h0]
    split_ifs <;> simp <;> omega

theorem le4_putUint32 (n : Nat) (h : n < 4294967296) :
    le4 (UInt8.ofNat n) (UInt8.ofNat (n / 256)) (UInt8.ofNat (n / 65536)) (UInt8.ofNat (n / 16777216)) = n := by
  unfold le4
  simp only [UInt8.toNat_ofNat']
  omega

/-- C06: otherwise the client parses back the same version, buffer size and sub-protocol name, and the read
timeout cut to whole milliseconds. -/
theorem C06_acceptconf_roundtrip (c : ConfInput) (bs : Bytes) (hc : newAcceptConfMessage c = .ok bs)
    (m : Msg) (hm : Clean m) (hfit : bs.length ≤ m.buf.length) :
    ∃ m', m.readBytes bs = .ok (m', true, none) ∧ m'.msgType = 23 ∧ m'.conf.major = c.major ∧
      m'.conf.minor = c.minor ∧ m'.conf.messageBufferSize = c.messageBufferSize.toNat ∧
      m'.conf.subProtocolName.view m'.buf = c.subProtocolName ∧
      ∃ ms : Int, m'.conf.readTimeout = ms * 1000000 ∧ 0 ≤ ms ∧
        (0 ≤ c.readTimeout → ms * 1000000 ≤ c.readTimeout ∧ c.readTimeout < (ms + 1) * 1000000) ∧
        (c.readTimeout < 0 → ms = 0) := by
  unfold newAcceptConfMessage at hc
  dsimp only at hc
  split_ifs at hc with h1 h2
  simp only [Except.ok.injEq] at hc
  have hg := Grammar.conf c.major c.minor
    (UInt8.ofNat (c.readTimeout.tdiv 1000000).toNat)
    (UInt8.ofNat ((c.readTimeout.tdiv 1000000).toNat / 256))
    (UInt8.ofNat ((c.readTimeout.tdiv 1000000).toNat / 65536))
    (UInt8.ofNat ((c.readTimeout.tdiv 1000000).toNat / 16777216))
    (UInt8.ofNat c.messageBufferSize.toNat)
    (UInt8.ofNat (c.messageBufferSize.toNat / 256))
    (UInt8.ofNat (c.messageBufferSize.toNat / 65536))
    (UInt8.ofNat (c.messageBufferSize.toNat / 16777216)) c.subProtocolName
  rw [le4_putUint32 _ (by omega), le4_putUint32 _ c.messageBufferSize.toNat_lt] at hg
  have e : bs = 23 :: c.major :: c.minor ::
    (UInt8.ofNat (c.readTimeout.tdiv 1000000).toNat) ::
    (UInt8.ofNat ((c.readTimeout.tdiv 1000000).toNat / 256)) ::
    (UInt8.ofNat ((c.readTimeout.tdiv 1000000).toNat / 65536)) ::
    (UInt8.ofNat ((c.readTimeout.tdiv 1000000).toNat / 16777216)) ::
    (UInt8.ofNat c.messageBufferSize.toNat) ::
    (UInt8.ofNat (c.messageBufferSize.toNat / 256)) ::
    (UInt8.ofNat (c.messageBufferSize.toNat / 65536)) ::
    (UInt8.ofNat (c.messageBufferSize.toNat / 16777216)) :: c.subProtocolName := by
    rw [← hc]; rfl
  rw [← e] at hg
  obtain ⟨m', r1, r2, r3, -⟩ := read_shows hm hfit hg
  have rc := congrArg View.conf r3
  simp only [Msg.shown, ConfView.mk.injEq] at rc
  obtain ⟨c1, c2, c3, c4, c5⟩ := rc
  refine ⟨m', r1, r2.msgType, c1, c2, c4, c5, c.readTimeout.tdiv 1000000, ?_, by omega, ?_, ?_⟩
  · rw [c3, Int.mul_comm]; congr 1; omega
  · intro h0
    rw [tdiv_ms, if_pos h0]
    omega
  · intro h0
    rw [tdiv_ms, if_neg (by omega)] at h2 ⊢
    omega

/-- C06, non-vacuity: 60.0005 s, buffer size 8192, sub-protocol "x". -/
example : newAcceptConfMessage ⟨2, 0, [120], 60000500000, 8192⟩ =
    .ok [23, 2, 0, 96, 234, 0, 0, 0, 32, 0, 0, 120] := rfl

/-! ## C07 -/

/-- C07: `ReadBytes` returns for every byte sequence and whatever the message object held before: it neither
panics nor blocks. -/
theorem C07_readBytes_never_panics (m : Msg) (bs : Bytes) :
    ∃ m' typeParsed err, m.readBytes bs = .ok (m', typeParsed, err) :=
  readBytes_returns m bs

/-- C07, non-vacuity: a request whose name length byte points far beyond the message, into a buffer full of
stale bytes. -/
example : ∃ m', ({ newMessage 16 with buf := List.replicate 16 7 } : Msg).readBytes
    [127, 1,2,3,4,5,6,7,8, 255, 9, 9] = .ok (m', true, some "invalid request message, too short for full name") :=
  ⟨_, rfl⟩

/-! ## C08 -/

/-- All bytes a message object lets its holder see. -/
def exposed (m : Msg) : List Bytes :=
  [m.name.view m.buf, m.payload.data.view m.buf, m.conf.subProtocolName.view m.buf]

/-- C08: after a successful parse into a message from the pool, name, payload and sub-protocol name are
contiguous pieces of the received bytes, and the identifier is bytes 1 to 8 of them or zero, whatever the
rest of the buffer holds. -/
theorem C08_no_foreign_bytes (m m' : Msg) (hm : Clean m) (bs : Bytes) (hne : bs ≠ []) (tp : Bool)
    (h : m.readBytes bs = .ok (m', tp, none)) :
    (∀ x ∈ exposed m', x <:+: bs) ∧ (m'.ident = zero8 ∨ ∃ t rest, bs = t :: (m'.ident ++ rest)) := by
  have hfit : bs.length ≤ m.buf.length := by
    by_contra hc
    unfold Msg.readBytes at h
    rw [if_neg (by have := List.length_pos_iff.mpr hne; omega), if_pos (by omega)] at h
    simp at h
  obtain ⟨m1, tp1, e1, h1, -, -, -, -, h6⟩ := readBytes_clean hm hne hfit
  rw [h1] at h
  simp only [Except.ok.injEq, Prod.mk.injEq] at h
  obtain ⟨rfl, rfl, rfl⟩ := h
  cases hd : decode bs with
  | none => simp [hd] at h6
  | some v =>
    rw [hd] at h6
    obtain ⟨-, -, -, hs⟩ := h6
    have hg := grammar_of_decode hd hne
    have hn : m1.name.view m1.buf = v.name := by rw [← hs]; rfl
    have hp : m1.payload.data.view m1.buf = v.payload := by rw [← hs]; rfl
    have hsub : m1.conf.subProtocolName.view m1.buf = v.conf.subProtocolName := by rw [← hs]; rfl
    have hi : m1.ident = v.ident := by rw [← hs]; rfl
    simp only [exposed, hn, hp, hsub, hi, List.mem_cons, List.not_mem_nil, or_false, forall_eq_or_imp,
      forall_eq]
    have nil_in : ([] : Bytes) <:+: bs := List.nil_infix
    cases hg with
    | heartbeat => exact ⟨⟨nil_in, nil_in, nil_in⟩, .inl rfl⟩
    | sessionClosed => exact ⟨⟨nil_in, nil_in, nil_in⟩, .inl rfl⟩
    | sessionCreated info _ => exact ⟨⟨nil_in, ⟨[21], [], by simp⟩, nil_in⟩, .inl rfl⟩
    | closeSession id _ => exact ⟨⟨nil_in, nil_in, nil_in⟩, .inr ⟨31, [], by simp⟩⟩
    | restoreSession id key _ _ =>
      exact ⟨⟨nil_in, ⟨32 :: id, [], by simp⟩, nil_in⟩, .inr ⟨32, key, rfl⟩⟩
    | special t id ig _ _ => exact ⟨⟨nil_in, nil_in, nil_in⟩, .inr ⟨t, ig, rfl⟩⟩
    | errorReply id code text n _ _ _ =>
      exact ⟨⟨⟨0 :: (id ++ [n]), text, by simp⟩, ⟨0 :: (id ++ n :: code), [], by simp⟩, nil_in⟩, .inr ⟨0, _, rfl⟩⟩
    | signal t n name payload _ _ _ =>
      exact ⟨⟨⟨[t, n], payload, by simp⟩, ⟨t :: n :: name, [], by simp⟩, nil_in⟩, .inl rfl⟩
    | signal16 n name pad payload _ _ _ _ =>
      exact ⟨⟨⟨[65, n], pad ++ payload, by simp⟩, ⟨65 :: n :: (name ++ pad), [], by simp⟩, nil_in⟩, .inl rfl⟩
    | request t n id name payload _ _ _ _ =>
      exact ⟨⟨⟨t :: (id ++ [n]), payload, by simp⟩, ⟨t :: (id ++ n :: name), [], by simp⟩, nil_in⟩,
        .inr ⟨t, _, rfl⟩⟩
    | request16 n id name pad payload _ _ _ _ _ =>
      exact ⟨⟨⟨129 :: (id ++ [n]), pad ++ payload, by simp⟩,
        ⟨129 :: (id ++ n :: (name ++ pad)), [], by simp⟩, nil_in⟩, .inr ⟨129, _, rfl⟩⟩
    | reply t id payload _ _ =>
      exact ⟨⟨nil_in, ⟨t :: id, [], by simp⟩, nil_in⟩, .inr ⟨t, payload, rfl⟩⟩
    | reply16 pad id payload _ _ =>
      exact ⟨⟨nil_in, ⟨193 :: (id ++ [pad]), [], by simp⟩, nil_in⟩, .inr ⟨193, _, rfl⟩⟩
    | conf a b t0 t1 t2 t3 s0 s1 s2 s3 sub =>
      exact ⟨⟨nil_in, nil_in, ⟨[23, a, b, t0, t1, t2, t3, s0, s1, s2, s3], [], by simp⟩⟩, .inl rfl⟩

/-- C08, non-vacuity: a short signal read into a buffer full of stale bytes. -/
example : ∃ m' tp, ({ newMessage 32 with buf := List.replicate 32 7 } : Msg).readBytes [63, 1, 97, 98] =
    .ok (m', tp, none) ∧ exposed m' = [[97], [98], []] := ⟨_, _, rfl, rfl⟩

/-- C08 needs the message object to be clean: reading into an object that was not closed after its previous
use shows bytes that do not belong to the message (here: name `[7,7]` for a request without a name). -/
theorem C08_unclosed_message_shows_foreign_bytes :
    ∃ (m0 m1 m2 : Msg) (b1 b2 : Bytes), Clean m0 ∧ m0.readBytes b1 = .ok (m1, true, none) ∧
      m1.readBytes b2 = .ok (m2, true, none) ∧ ∃ x ∈ exposed m2, ¬ x <:+: b2 := by
  refine ⟨newMessage 32, _, _, [127, 1,2,3,4,5,6,7,8, 2, 7, 7], [127, 1,2,3,4,5,6,7,8, 0, 9],
    ⟨rfl, rfl, rfl, rfl, rfl, rfl⟩, rfl, rfl, [9, 7], ?_, ?_⟩
  · exact List.mem_cons_self
  · decide

/-! ## C09 -/

/-- C09: a byte sequence that fits the buffer is accepted if and only if it is grammatical, and then the
message shows exactly the fields the grammar assigns; otherwise an error is returned. The encoding is the
documented one (except for error replies, see C04); a type byte outside the protocol is reported as unknown. -/
theorem C09_accepts_exactly_the_grammar (m : Msg) (hm : Clean m) (bs : Bytes) (hne : bs ≠ [])
    (hfit : bs.length ≤ m.buf.length) :
    ∃ m' tp e, m.readBytes bs = .ok (m', tp, e) ∧
      (e = none ↔ ∃ v, Grammar bs v) ∧
      (∀ v, Grammar bs v → m'.shown = v ∧
        (v.msgType ≠ 0 → m'.payload.encoding = documentedEncoding v.msgType)) ∧
      (tp = true ↔ ∃ t ∈ messageTypes, bs.head? = some t) := by
  obtain ⟨m', tp, e, h1, h2, h3, h4, h5, h6⟩ := readBytes_clean hm hne hfit
  refine ⟨m', tp, e, h1, ⟨?_, ?_⟩, ?_, ?_⟩
  · intro he
    cases hd : decode bs with
    | none => rw [hd] at h6; exact absurd he h6
    | some v => exact ⟨v, grammar_of_decode hd hne⟩
  · rintro ⟨v, hv⟩
    rw [decode_of_grammar hv] at h6
    exact h6.2.1
  · intro v hv
    rw [decode_of_grammar hv] at h6
    refine ⟨h6.2.2.2, fun h0 => ?_⟩
    rw [(h5 h6.1).2, byteAt_of_grammar hv]
    unfold parserEncoding documentedEncoding encUtf8 encUtf16 encBinary
    split_ifs <;> simp_all
  · rw [h4]
    cases bs with
    | nil => exact absurd rfl hne
    | cons a l =>
      show a ∈ messageTypes ↔ _
      simp

/-- C09: a byte sequence that does not fit the buffer is rejected and the message object stays as it was. -/
theorem C09_rejects_oversized (m : Msg) (bs : Bytes) (h : m.buf.length < bs.length) :
    ∃ e, m.readBytes bs = .ok (m, false, some e) := by
  unfold Msg.readBytes
  rw [if_neg (by omega), if_pos (by omega)]
  exact ⟨_, rfl⟩

/-- The grammar is unambiguous: a byte sequence has at most one reading. -/
theorem C09_grammar_unambiguous (bs : Bytes) (v v' : View) (h : Grammar bs v) (h' : Grammar bs v') : v = v' := by
  have := (decode_of_grammar h).symm.trans (decode_of_grammar h')
  simpa using this

/-- C09, non-vacuity: both sides of the equivalence occur. -/
example : Grammar [64, 1, 97] { msgType := 64, name := [97] } ∧ ¬ ∃ v, Grammar [64, 2, 97] v := by
  constructor
  · exact Grammar.signal 64 1 [97] [] (by simp) rfl (by simp)
  · rintro ⟨v, hv⟩
    have := decode_of_grammar hv
    simp [decode, byteAt] at this

end Webwire
