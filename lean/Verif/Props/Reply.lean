import Verif.Props.Dispatch

/-!
# Properties C22, C23, C24, C59, C60: replies

C22, C23 and C60 are about the ideal network of `Spec.Net` (what the client receives); C24 and C59 are about
arbitrary sockets.
-/

set_option autoImplicit false

namespace Webwire
open Spec

variable {ν υ : Type}

namespace Spec

/-- An error code that can be sent. -/
def SendableCode (code : Bytes) : Prop := code ≠ [] ∧ code.length ≤ 255 ∧ ∀ c ∈ code, Printable c

/-- Errors that are no `ErrRequest`. -/
def Internal : ReplyErr → Prop
  | .nil => False
  | .request _ _ => False
  | .requestPtr _ => False
  | _ => True

/-- The reply a handler's result must lead to. -/
inductive ReplyFor (ident : Bytes) (out : RequestOut) : View → Prop
  | success : out.err = .nil → (out.enc = 2 → out.payload.length % 2 = 0) →
      ReplyFor ident out { msgType := typeByte 191 out.enc, ident := ident, payload := out.payload }
  | error (code text : Bytes) : out.err = .request code text → SendableCode code →
      ReplyFor ident out { msgType := 0, ident := ident, name := code, payload := text }
  | errorPtr (code text : Bytes) : out.err = .requestPtr (some (code, text)) → SendableCode code →
      ReplyFor ident out { msgType := 0, ident := ident, name := code, payload := text }
  | internal : Internal out.err → ReplyFor ident out { msgType := 2, ident := ident }

/-- A result for which there is a reply. -/
def Answerable (out : RequestOut) : Prop := ∃ v, ReplyFor [] out v

/-- `b` is a reply to the request with identifier `id`. -/
def RepliesToId (id b : Bytes) : Prop := ∃ t rest, b = t :: (id ++ rest)

/-- The identifier of a reply. -/
def replyIdent (b : Bytes) : Bytes := (b.drop 1).take 8

end Spec

theorem call_of_replyFor {ident : Bytes} {out : RequestOut} {v : View} (h : ReplyFor ident out v)
    (hid : ident.length = 8) :
    ∃ call, replyCall ident out = some call ∧ call.Valid ∧ Grammar call.layout v := by
  have err : ∀ code text, SendableCode code → (WriterCall.errorReply ident code text true).Valid ∧
      Grammar (WriterCall.errorReply ident code text true).layout
        { msgType := 0, ident := ident, name := code, payload := text } := by
    intro code text hc
    refine ⟨fun _ => hc, ?_⟩
    have hl : (UInt8.ofNat code.length).toNat = code.length := by
      have := hc.2.1
      rw [UInt8.toNat_ofNat']; omega
    have := Grammar.errorReply ident code text (UInt8.ofNat code.length) hid hl hc.1
    simpa [WriterCall.layout] using this
  cases h with
  | success he hp =>
    refine ⟨.reply ident out.enc out.payload, by simp only [replyCall, he], hp, ?_⟩
    simp only [WriterCall.layout, typeByte]
    by_cases h1 : out.enc = 1
    · simpa [h1] using Grammar.reply 192 ident out.payload (by simp) hid
    · by_cases h2 : out.enc = 2
      · simpa [h2] using Grammar.reply16 0 ident out.payload hid (hp h2)
      · simpa [h1, h2] using Grammar.reply 191 ident out.payload (by simp) hid
  | error code text he hc =>
    exact ⟨_, by simp only [replyCall, he], (err code text hc).1, (err code text hc).2⟩
  | errorPtr code text he hc =>
    exact ⟨_, by simp only [replyCall, he], (err code text hc).1, (err code text hc).2⟩
  | internal he =>
    refine ⟨.special 2 ident, ?_, by simp [WriterCall.Valid], ?_⟩
    · unfold replyCall
      cases hr : out.err <;> rw [hr] at he <;> simp_all [Internal]
    · simpa [WriterCall.layout] using Grammar.special 2 ident [] (by simp) hid

theorem replyFor_of_call {ident : Bytes} {out : RequestOut} {call : WriterCall}
    (h : replyCall ident out = some call) (hv : call.Valid) : ∃ v, ReplyFor ident out v := by
  unfold replyCall at h
  cases he : out.err with
  | nil =>
    rw [he] at h; simp only [Option.some.injEq] at h; subst h
    exact ⟨_, .success he hv⟩
  | request code text =>
    rw [he] at h; simp only [Option.some.injEq] at h; subst h
    exact ⟨_, .error code text he (hv rfl)⟩
  | requestPtr p =>
    rw [he] at h
    cases p with
    | none => simp at h
    | some p =>
      obtain ⟨code, text⟩ := p
      simp only [Option.some.injEq] at h; subst h
      exact ⟨_, .errorPtr code text he (hv rfl)⟩
  | maxSessConnsReached | sessionNotFound | sessionsDisabled => exact ⟨_, .internal (by rw [he]; trivial)⟩
  | other t => exact ⟨_, .internal (by rw [he]; trivial)⟩

theorem ident_length {bs : Bytes} {v : View} (hg : Grammar bs v) (ht : v.msgType ∈ [31, 32, 127, 128, 129]) :
    v.ident.length = 8 := by
  cases hg <;> simp_all

theorem answerable_any {out : RequestOut} (h : Answerable out) (ident : Bytes) : ∃ v, ReplyFor ident out v := by
  obtain ⟨v, h⟩ := h
  cases h with
  | success h1 h2 => exact ⟨_, .success h1 h2⟩
  | error c t h1 h2 => exact ⟨_, .error c t h1 h2⟩
  | errorPtr c t h1 h2 => exact ⟨_, .errorPtr c t h1 h2⟩
  | internal h1 => exact ⟨_, .internal h1⟩

/-! ## C22 -/

/-- The circumstances of C22: an open connection on the ideal network receives a well-formed message that asks
for a reply and the handler does not close its message. -/
structure Asked (srv : Server Net υ) (w : World Net υ) (c : ConnId) (bs : Bytes) (v : View) : Prop where
  ideal : ideal srv
  clean : ∀ i, w.net.pending i = []
  connected : w.net.connected c = true
  active : (w.conns c).isActive = true
  tasks : 0 ≤ (w.conns c).tasks
  grammar : Grammar bs v
  fits : bs.length ≤ srv.bufferSize.toNat
  asks : v.msgType ∈ [31, 32, 127, 128, 129]
  keeps : ∀ u i m, (srv.hooks.onRequest u i m).2.closesMsg = false

/-- C22, full statement: exactly one reply, carrying the request's identifier, and none elsewhere. -/
def C22_full : Prop :=
  ∀ (υ : Type) (srv : Server Net υ) (w w' : World Net υ) (c : ConnId) (bs : Bytes) (v : View),
    Asked srv w c bs v → serve srv w c [.data bs] = .ok w' →
    (∃ b, replies (w'.net.out c) = replies (w.net.out c) ++ [b] ∧ RepliesToId v.ident b) ∧
    ∀ i, i ≠ c → replies (w'.net.out i) = replies (w.net.out i)

/-- C22 is violated by the code: a handler result with UTF16 encoding and an odd number of bytes is not
answered at all (fulfillMsg.go:27-32 only logs the error). -/
theorem C22_answered_violated : ¬ C22_full := by
  intro h
  have hrun : ∃ w', serve (exServer { enc := 2, payload := [1] }) exWorld 1
      [.data [127, 1,2,3,4,5,6,7,8, 1, 97]] = .ok w' ∧ w'.net.out 1 = [] := ⟨_, rfl, rfl⟩
  obtain ⟨w', hrun, hout⟩ := hrun
  obtain ⟨⟨b, hb, _⟩, _⟩ := h Unit (exServer { enc := 2, payload := [1] }) exWorld w' 1 [127, 1,2,3,4,5,6,7,8, 1, 97]
    { msgType := 127, ident := [1,2,3,4,5,6,7,8], name := [97] }
    { ideal := rfl, clean := fun _ => rfl, connected := rfl, active := rfl, tasks := by decide
      grammar := Grammar.request 127 1 [1,2,3,4,5,6,7,8] [97] [] (by simp) rfl rfl (by simp)
      fits := by decide, asks := by simp, keeps := fun _ _ _ => rfl } hrun
  rw [hout] at hb
  simp [replies, exWorld] at hb

/-- C22 is violated in the same way by an `ErrRequest` whose code is empty (failMsg.go:33-47). -/
theorem C22_empty_code_violated : ∃ w', serve (exServer { err := .request [] [1] }) exWorld 1
    [.data [127, 1,2,3,4,5,6,7,8, 1, 97]] = .ok w' ∧ w'.net.out 1 = [] ∧
    hookCalls w'.trace = [.onRequest 1 [1,2,3,4,5,6,7,8] [97] 0 []] := ⟨_, rfl, rfl, rfl⟩

theorem asked_replied {srv : Server Net υ} {w w' : World Net υ} {c : ConnId} {bs : Bytes} {v : View}
    (ha : Asked srv w c bs v) (h : serve srv w c [.data bs] = .ok w') :
    ∃ m l, m.shown = v ∧ m.payload.encoding = parserEncoding v.msgType ∧ m.identifierBytes = v.ident ∧ 0 < m.len ∧
      RepliesTo srv w c m l ∧ Replied c l w w' := by
  obtain ⟨m, h1, h2, h3, hlen, h4⟩ := serve_grammar (srv := srv) (w := w) (c := c) (rest := []) ha.grammar ha.fits
  rw [h4] at h
  obtain ⟨w1, h5, h⟩ := bind_ok h
  simp only [serve, Except.ok.injEq] at h
  subst h
  obtain ⟨l, r1, r2⟩ := handleMessage_replied ha.ideal ha.clean ha.connected ha.tasks (ha.keeps _ _ _) h5
  refine ⟨m, l, h1, h2, h3 ?_, hlen, r1, r2⟩
  have := ha.asks
  unfold noIdentTypes
  intro hn
  simp only [List.mem_cons, List.not_mem_nil, or_false] at this hn
  rcases this with h | h | h | h | h <;> rw [h] at hn <;> revert hn <;> decide

/-- C22 for handlers whose results can be encoded. Missing compared to `C22_full`: results with UTF16 encoding
and an odd number of bytes, and `ErrRequest`s whose code is empty, longer than 255 bytes or not printable ASCII
(those get no reply, `C23_unanswerable`). Holds while shutting down as well, and for session restoration and
closure requests without any condition on the handler. -/
theorem C22_answered_once_partial (srv : Server Net υ) (w w' : World Net υ) (c : ConnId) (bs : Bytes) (v : View)
    (ha : Asked srv w c bs v)
    (hw : v.msgType ∈ [127, 128, 129] → w.shutdown = false → ∀ m, Answerable (srv.hooks.onRequest w.user c m).2)
    (h : serve srv w c [.data bs] = .ok w') :
    (∃ b, replies (w'.net.out c) = replies (w.net.out c) ++ [b] ∧ RepliesToId v.ident b) ∧
    ∀ i, i ≠ c → replies (w'.net.out i) = replies (w.net.out i) := by
  obtain ⟨m, l, h1, h2, h3, hpos, r1, r2⟩ := asked_replied ha h
  have et : m.msgType = v.msgType := by rw [← h1]; rfl
  refine ⟨?_, r2.elsewhere⟩
  rw [r2.here]
  have hlen := ident_length ha.grammar ha.asks
  cases r1 with
  | silent hs =>
    rcases hs with hs | hs
    · rw [ha.active] at hs; cases hs
    · rw [et] at hs; exact absurd ha.asks hs
  | shutdown _ _ _ => exact ⟨_, rfl, 1, [], by rw [h3]; simp⟩
  | request call _ _ _ hc hv =>
    refine ⟨_, rfl, ?_⟩
    obtain ⟨v', hv'⟩ := replyFor_of_call hc hv
    have : ∃ t rest, call.layout = t :: (m.identifierBytes ++ rest) := by
      unfold replyCall at hc
      split at hc <;> simp only [Option.some.injEq, reduceCtorEq] at hc <;> subst hc
      · exact ⟨_, _, by simp only [WriterCall.layout, List.append_assoc]; rfl⟩
      · exact ⟨_, _, by simp only [WriterCall.layout, List.append_assoc]; rfl⟩
      · exact ⟨_, _, by simp only [WriterCall.layout, List.append_assoc]; rfl⟩
      · exact ⟨2, [], by simp [WriterCall.layout]⟩
    rw [h3] at this
    exact this
  | unwritable call _ hm hsd hc hnv =>
    exfalso
    obtain ⟨v', hv'⟩ := answerable_any (hw (by rw [← et]; exact hm) hsd m) m.identifierBytes
    obtain ⟨call', hc', hv, _⟩ := call_of_replyFor hv' (by rw [h3]; exact hlen)
    rw [hc] at hc'
    cases hc'
    exact hnv hv
  | restoreFailed t _ _ _ _ => exact ⟨_, rfl, t, [], by rw [h3]; simp⟩
  | restored s _ _ _ => exact ⟨_, rfl, 192, s, by rw [h3]⟩
  | closure _ _ _ => exact ⟨_, rfl, (if srv.sessionsEnabled = true then 191 else 5), [], by rw [h3]; simp⟩

theorem repliesToId_ident {id b : Bytes} (h : RepliesToId id b) (hl : id.length = 8) : replyIdent b = id := by
  obtain ⟨t, rest, rfl⟩ := h
  simp [replyIdent, hl]

/-- C22 over a whole run of a connection: of any sequence of messages received on a connection that stays open,
exactly the requests are answered, one reply each, in the order of arrival. Missing compared to the full
statement: as in `C22_answered_once_partial`. -/
theorem C22_run_answered_in_order_partial (srv : Server Net υ) (hs : ideal srv) (c : ConnId)
    (hk : ∀ u i m, (srv.hooks.onRequest u i m).2.closesMsg = false)
    (hw : ∀ u m, Answerable (srv.hooks.onRequest u c m).2) :
    ∀ (msgs : List (Bytes × View)) (w w' : World Net υ),
    (∀ p ∈ msgs, Grammar p.1 p.2 ∧ p.1.length ≤ srv.bufferSize.toNat) → w.shutdown = false →
    (∀ i, w.net.pending i = []) → w.net.connected c = true → 0 ≤ (w.conns c).tasks →
    serve srv w c (msgs.map fun p => .data p.1) = .ok w' → (w'.conns c).isActive = true →
    ∃ rs, replies (w'.net.out c) = replies (w.net.out c) ++ rs ∧
      rs.map replyIdent = (msgs.filter fun p => decide (p.2.msgType ∈ [31, 32, 127, 128, 129])).map fun p => p.2.ident := by
  intro msgs
  induction msgs with
  | nil =>
    intro w w' _ _ _ _ _ h _
    simp only [List.map_nil, serve, Except.ok.injEq] at h
    subst h
    exact ⟨[], by simp, rfl⟩
  | cons p msgs ih =>
    intro w w' hall hsd h0 hcon ht h hact
    obtain ⟨hg, hfit⟩ := hall p (by simp)
    rw [List.map_cons] at h
    obtain ⟨m, w1, h5, h6, h⟩ := serve_split hg hfit h
    have hb := handleMessage_back hsd h5
    have F := connectedFrame (srv := srv) (cap := none) hs c
    have hact1 := (F.serve h).1 hact
    have hact0 := (F.handleMessage (fun h => by cases h) h5).1 hact1
    have hcon1 := (F.handleMessage (fun h => by cases h) h5).2 hact1 hcon
    have hp1 : ∀ i, w1.net.pending i = [] := by
      obtain ⟨l, _, r⟩ := handleMessage_replied hs h0 hcon ht (hk _ _ _) h5
      exact r.pending
    obtain ⟨rs, e1, e2⟩ := ih w1 w' (fun q hq => hall q (by simp [hq])) (by rw [hb.shutdown]; exact hsd) hp1 hcon1
      (by rw [hb.tasks]; exact ht) h hact
    by_cases ha : p.2.msgType ∈ [31, 32, 127, 128, 129]
    · obtain ⟨⟨b, hb1, hb2⟩, _⟩ := C22_answered_once_partial srv w w1 c p.1 p.2
        { ideal := hs, clean := h0, connected := hcon, active := hact0, tasks := ht, grammar := hg, fits := hfit
          asks := ha, keeps := hk } (fun _ _ m => hw _ m) h6
      refine ⟨b :: rs, by rw [e1, hb1]; simp, ?_⟩
      have hlen := ident_length hg ha
      rw [List.map_cons, e2, repliesToId_ident hb2 hlen, List.filter_cons_of_pos (by simpa using ha), List.map_cons]
    · have := C20_no_reply srv hs w w1 c p.1 p.2 hg hfit ha h0 h6 c
      refine ⟨rs, by rw [e1, this], ?_⟩
      rw [e2, List.filter_cons_of_neg (by simpa using ha)]

/-- C22: signals are never answered (nor is anything else that is not a request, `C20_no_reply`). -/
theorem C22_signals_unanswered (srv : Server Net υ) (hs : ideal srv) (w w' : World Net υ) (c : ConnId) (bs : Bytes)
    (v : View) (hg : Grammar bs v) (hfit : bs.length ≤ srv.bufferSize.toNat) (ht : v.msgType ∈ [63, 64, 65])
    (h0 : ∀ i, w.net.pending i = []) (h : serve srv w c [.data bs] = .ok w') (i : ConnId) :
    replies (w'.net.out i) = replies (w.net.out i) := by
  refine C20_no_reply srv hs w w' c bs v hg hfit ?_ h0 h i
  simp only [List.mem_cons, List.not_mem_nil, or_false] at ht
  rcases ht with h | h | h <;> rw [h] <;> decide

/-- C22, non-vacuity: a session closure request and a request, both answered, on a server that meets all
hypotheses. -/
example : (∃ w', serve (exServer { payload := [7] }) exWorld 1
      ([([31, 1,2,3,4,5,6,7,8], { msgType := 31, ident := [1,2,3,4,5,6,7,8] }),
        ([127, 8,7,6,5,4,3,2,1, 1, 97], { msgType := 127, ident := [8,7,6,5,4,3,2,1], name := [97] })].map
          fun (p : Bytes × View) => .data p.1) = .ok w' ∧
    replies (w'.net.out 1) = [[191, 1,2,3,4,5,6,7,8], [191, 8,7,6,5,4,3,2,1, 7]] ∧ (w'.conns 1).isActive = true) ∧
    ∀ u m, Answerable ((exServer { payload := [7] }).hooks.onRequest u 1 m).2 :=
  ⟨⟨_, rfl, rfl, rfl⟩, fun _ _ => ⟨_, .success rfl (by simp [exServer, exHooks])⟩⟩

/-! ## C23 -/

/-- C23: the handler is given the received message, and its result leads to exactly the reply `ReplyFor` names:
success with the handler's payload and encoding, an error reply with the code and text of an `ErrRequest` (by
value or by pointer), an internal-error reply for any other error. -/
theorem C23_result_to_reply (srv : Server Net υ) (w w' : World Net υ) (c : ConnId) (bs : Bytes) (v : View)
    (ha : Asked srv w c bs v) (ht : v.msgType ∈ [127, 128, 129]) (hsd : w.shutdown = false)
    (h : serve srv w c [.data bs] = .ok w') :
    ∃ m, m.shown = v ∧ Shows m v.msgType v.ident v.name (documentedEncoding v.msgType) v.payload ∧
      ∀ r, ReplyFor v.ident (srv.hooks.onRequest w.user c m).2 r →
        ∃ b, Grammar b r ∧ replies (w'.net.out c) = replies (w.net.out c) ++ [b] := by
  obtain ⟨m, l, h1, h2, h3, hpos, r1, r2⟩ := asked_replied ha h
  have et : m.msgType = v.msgType := by rw [← h1]; rfl
  have hlen := ident_length ha.grammar ha.asks
  have henc : parserEncoding v.msgType = documentedEncoding v.msgType := by
    simp only [List.mem_cons, List.not_mem_nil, or_false] at ht
    rcases ht with h | h | h <;> rw [h] <;> rfl
  refine ⟨m, h1, by rw [← henc, ← h2]; exact Shows.of_shown h1 hpos, ?_⟩
  intro r hr
  obtain ⟨call, c1, c2, c3⟩ := call_of_replyFor hr hlen
  have hm31 : m.msgType ≠ 31 ∧ m.msgType ≠ 32 := by
    rw [et]
    simp only [List.mem_cons, List.not_mem_nil, or_false] at ht
    rcases ht with h | h | h <;> rw [h] <;> decide
  cases r1 with
  | silent hs =>
    rcases hs with hs | hs
    · rw [ha.active] at hs; cases hs
    · rw [et] at hs; exact absurd ha.asks hs
  | shutdown _ _ hs => rw [hsd] at hs; cases hs
  | request call' _ _ _ hc _ =>
    rw [h3, c1] at hc
    cases hc
    exact ⟨_, c3, r2.here⟩
  | unwritable call' _ _ _ hc hnv =>
    rw [h3, c1] at hc
    cases hc
    exact absurd c2 hnv
  | restoreFailed t _ h _ _ => exact absurd h hm31.2
  | restored s _ h _ => exact absurd h hm31.2
  | closure _ h _ => exact absurd h hm31.1

/-- C23: a result for which there is no reply gets none. -/
theorem C23_unanswerable (srv : Server Net υ) (w w' : World Net υ) (c : ConnId) (bs : Bytes) (v : View)
    (ha : Asked srv w c bs v) (ht : v.msgType ∈ [127, 128, 129]) (hsd : w.shutdown = false)
    (hn : ∀ m, ¬ Answerable (srv.hooks.onRequest w.user c m).2)
    (h : serve srv w c [.data bs] = .ok w') :
    replies (w'.net.out c) = replies (w.net.out c) := by
  obtain ⟨m, l, h1, h2, h3, hpos, r1, r2⟩ := asked_replied ha h
  have et : m.msgType = v.msgType := by rw [← h1]; rfl
  have hm31 : m.msgType ≠ 31 ∧ m.msgType ≠ 32 := by
    rw [et]
    simp only [List.mem_cons, List.not_mem_nil, or_false] at ht
    rcases ht with h | h | h <;> rw [h] <;> decide
  cases r1 with
  | silent hs => simpa using r2.here
  | shutdown _ _ hs => rw [hsd] at hs; cases hs
  | request call _ _ _ hc hv =>
    exfalso
    obtain ⟨v', hv'⟩ := replyFor_of_call hc hv
    apply hn m
    cases hv' with
    | success h1 h2 => exact ⟨_, .success h1 h2⟩
    | error c t h1 h2 => exact ⟨_, .error c t h1 h2⟩
    | errorPtr c t h1 h2 => exact ⟨_, .errorPtr c t h1 h2⟩
    | internal h1 => exact ⟨_, .internal h1⟩
  | unwritable call _ _ _ hc hnv => simpa using r2.here
  | restoreFailed t _ h _ _ => exact absurd h hm31.2
  | restored s _ h _ => exact absurd h hm31.2
  | closure _ h _ => exact absurd h hm31.1

/-- C23, non-vacuity: the four kinds of results, and what the client gets. -/
example : (∃ w', serve (exServer { enc := 2, payload := [1, 0] }) exWorld 1 [.data [127, 1,2,3,4,5,6,7,8, 1, 97]] = .ok w' ∧
      w'.net.out 1 = [[193, 1,2,3,4,5,6,7,8, 0, 1, 0]]) ∧
    (∃ w', serve (exServer { err := .request [69] [33, 34] }) exWorld 1 [.data [127, 1,2,3,4,5,6,7,8, 1, 97]] = .ok w' ∧
      w'.net.out 1 = [[0, 1,2,3,4,5,6,7,8, 1, 69, 33, 34]]) ∧
    (∃ w', serve (exServer { err := .requestPtr (some ([69], [])) }) exWorld 1 [.data [127, 1,2,3,4,5,6,7,8, 1, 97]] = .ok w' ∧
      w'.net.out 1 = [[0, 1,2,3,4,5,6,7,8, 1, 69]]) ∧
    (∃ w', serve (exServer { err := .sessionNotFound }) exWorld 1 [.data [127, 1,2,3,4,5,6,7,8, 1, 97]] = .ok w' ∧
      w'.net.out 1 = [[2, 1,2,3,4,5,6,7,8]]) := ⟨⟨_, rfl, rfl⟩, ⟨_, rfl, rfl⟩, ⟨_, rfl, rfl⟩, ⟨_, rfl, rfl⟩⟩

/-! ## C24 -/

namespace Spec

/-- The server with another `OnRequest`. -/
def withOnRequest (srv : Server ν υ) (f : υ → ConnId → Msg → υ × RequestOut) : Server ν υ :=
  { srv with hooks := { srv.hooks with onRequest := f } }

/-- Two request handlers that do the same, except that where one fails with an internal error the other fails with
a possibly different internal error (and possibly another, discarded, payload). -/
def SameUpToInternal (f g : υ → ConnId → Msg → υ × RequestOut) : Prop :=
  ∀ u c m, f u c m = g u c m ∨
    ((f u c m).1 = (g u c m).1 ∧ (f u c m).2.calls = (g u c m).2.calls ∧
     (f u c m).2.closesMsg = (g u c m).2.closesMsg ∧ Internal (f u c m).2.err ∧ Internal (g u c m).2.err)

end Spec

theorem closeSessions_onReq (srv : Server ν υ) (f : υ → ConnId → Msg → υ × RequestOut) (cs : List ConnId) :
    ∀ w : World ν υ, closeSessions (withOnRequest srv f) w cs = closeSessions srv w cs := by
  induction cs with
  | nil => exact fun _ => rfl
  | cons c cs ih =>
    intro w
    unfold closeSessions
    simp only [ih]
    rfl

theorem runApi_onReq (srv : Server ν υ) (f : υ → ConnId → Msg → υ × RequestOut) (w : World ν υ) (a : ApiCall) :
    runApi (withOnRequest srv f) w a = runApi srv w a := by
  cases a with
  | srvCloseSession key order =>
    unfold runApi srvCloseSession
    simp only [closeSessions_onReq]
  | _ => rfl

theorem runApis_onReq (srv : Server ν υ) (f : υ → ConnId → Msg → υ × RequestOut) (as : List ApiCall) :
    ∀ w : World ν υ, runApis (withOnRequest srv f) w as = runApis srv w as := by
  induction as with
  | nil => exact fun _ => rfl
  | cons a as ih =>
    intro w
    unfold runApis
    simp only [ih, runApi_onReq]

/-- `handleRequest` after the hook returned. -/
def afterRequest (srv : Server ν υ) (w : World ν υ) (c : ConnId) (m : Msg) (user : υ) (out : RequestOut) :
    Go (World ν υ) := do
  let w ← runApis srv { w with user := user } out.calls
  let m := if out.closesMsg then m.close.1 else m
  let w ← answerRequest srv w c m out
  let w ← deregisterHandler srv w c
  return releaseMsg w

theorem handleRequest_after (srv : Server ν υ) (w : World ν υ) (c : ConnId) (m : Msg) :
    ∃ w0 : World ν υ, w0.user = w.user ∧ ∀ f, handleRequest (withOnRequest srv f) w c m =
      afterRequest (withOnRequest srv f) w0 c m (f w.user c m).1 (f w.user c m).2 :=
  ⟨w.log (.onRequest c m.ident (m.name.view m.buf) m.payload.encoding (m.payload.data.view m.buf)), rfl, fun _ => rfl⟩

theorem afterRequest_onReq (srv : Server ν υ) (f : υ → ConnId → Msg → υ × RequestOut) (w : World ν υ) (c : ConnId)
    (m : Msg) (u : υ) (out : RequestOut) :
    afterRequest (withOnRequest srv f) w c m u out = afterRequest srv w c m u out := by
  unfold afterRequest
  simp only [runApis_onReq]
  rfl

theorem afterRequest_internal (srv : Server ν υ) (w : World ν υ) (c : ConnId) (m : Msg) (u : υ) (o p : RequestOut)
    (hc : o.calls = p.calls) (hm : o.closesMsg = p.closesMsg) (ho : Internal o.err) (hp : Internal p.err) :
    afterRequest srv w c m u o = afterRequest srv w c m u p := by
  obtain ⟨_, _, _, _, eo⟩ := o
  obtain ⟨_, _, _, _, ep⟩ := p
  simp only at hc hm
  subst hc hm
  unfold afterRequest
  cases eo <;> first | exact absurd ho id | (cases ep <;> first | exact absurd hp id | rfl)

theorem handleRequest_internal (srv : Server ν υ) (f g : υ → ConnId → Msg → υ × RequestOut)
    (h : SameUpToInternal f g) (w : World ν υ) (c : ConnId) (m : Msg) :
    handleRequest (withOnRequest srv f) w c m = handleRequest (withOnRequest srv g) w c m := by
  obtain ⟨w0, _, e⟩ := handleRequest_after srv w c m
  rw [e f, e g, afterRequest_onReq, afterRequest_onReq]
  rcases h w.user c m with hx | ⟨h1, h2, h3, h4, h5⟩
  · rw [hx]
  · rw [h1]
    exact afterRequest_internal srv w0 c m _ _ _ h2 h3 h4 h5

/-- C24: what happens on the network and everywhere else (the resulting worlds, including all bytes sent on any
connection) is the same whatever internal errors the request handler returns. -/
theorem C24_internal_errors_leak_nothing (srv : Server ν υ) (f g : υ → ConnId → Msg → υ × RequestOut)
    (h : SameUpToInternal f g) (c : ConnId) (input : List Incoming) : ∀ w : World ν υ,
    serve (withOnRequest srv f) w c input = serve (withOnRequest srv g) w c input := by
  have hm : ∀ (w : World ν υ) (m : Msg),
      handleMessage (withOnRequest srv f) w c m = handleMessage (withOnRequest srv g) w c m := by
    intro w m
    unfold handleMessage
    simp only [handleRequest_internal srv f g h]
    have hs : ∀ w : World ν υ, handleSignal (withOnRequest srv f) w c m = handleSignal (withOnRequest srv g) w c m := by
      intro w
      unfold handleSignal
      simp only [runApis_onReq]
      rfl
    simp only [hs]
    rfl
  have hd : ∀ w : World ν υ, disconnect (withOnRequest srv f) w c = disconnect (withOnRequest srv g) w c := by
    intro w
    unfold disconnect
    simp only [runApis_onReq]
    rfl
  induction input with
  | nil => exact fun _ => rfl
  | cons i rest ih =>
    intro w
    cases i with
    | failed b => exact hd w
    | data bs =>
      unfold serve
      simp only [hm, hd, ih]
      rfl

/-- C24, non-vacuity: two handlers that differ in the internal error and the discarded payload. -/
example : SameUpToInternal (fun (u : Unit) _ _ => (u, { err := .other "password wrong" }))
    (fun u _ _ => (u, { err := .sessionNotFound, payload := [1, 2, 3] })) :=
  fun _ _ _ => .inr ⟨rfl, rfl, rfl, trivial, trivial⟩

/-! ## C59 -/

/-- C59: whatever a client sends, in whatever order, and whatever the socket does otherwise, the server neither
panics nor blocks (with sockets and user code that return, a free handler slot and no shutdown in progress). -/
theorem C59_no_input_stops_the_server (srv : Server ν υ) (hw : WellBehaved srv) (w : World ν υ) (c : ConnId)
    (hr : Ready w c) (input : List Incoming) : ∃ w', serve srv w c input = .ok w' :=
  serve_returns hw input hr

/-- C59, non-vacuity: the example server is well-behaved and ready. -/
example : WellBehaved (exServer {}) ∧ Ready exWorld 1 := by
  refine ⟨⟨?_, ?_, ?_, ?_, ?_, ?_⟩, ⟨rfl, ?_⟩⟩
  · intro n c
    show ∃ r, (if n.connected c then _ else _) = _
    split_ifs <;> exact ⟨_, rfl⟩
  · intro c
    refine ⟨fun s b => ⟨_, rfl⟩, fun s => ?_⟩
    show ∃ r, (if s.pending c = [] then _ else _) = _
    split_ifs <;> exact ⟨_, rfl⟩
  · exact fun _ _ => ⟨_, rfl⟩
  · exact fun _ _ => ⟨_, rfl⟩
  · exact fun _ => by simp [exServer, exHooks]
  · exact fun _ _ _ => by simp [exServer, exHooks]
  · intro h; exact absurd h (by decide)

/-! ## C60 -/

/-- C60, full statement: closing the message within `OnRequest` does not change what the client receives. -/
def C60_full : Prop :=
  ∀ (out : RequestOut) (bs : Bytes) (w1 w2 : World Net Unit),
    serve (exServer { out with closesMsg := false }) exWorld 1 [.data bs] = .ok w1 →
    serve (exServer { out with closesMsg := true }) exWorld 1 [.data bs] = .ok w2 → w2.net.out 1 = w1.net.out 1

/-- C60 is violated by the code: `handleRequest` uses the message after the hook returned (handleRequest.go:17-38,
message.go `Close` clears the identifier), so the reply carries no identifier. -/
theorem C60_handler_may_close_violated : ¬ C60_full := by
  intro h
  have h1 : ∃ w', serve (exServer { payload := [7], closesMsg := false }) exWorld 1
      [.data [127, 1,2,3,4,5,6,7,8, 1, 97]] = .ok w' ∧ w'.net.out 1 = [[191, 1,2,3,4,5,6,7,8, 7]] := ⟨_, rfl, rfl⟩
  have h2 : ∃ w', serve (exServer { payload := [7], closesMsg := true }) exWorld 1
      [.data [127, 1,2,3,4,5,6,7,8, 1, 97]] = .ok w' ∧ w'.net.out 1 = [[191, 7]] := ⟨_, rfl, rfl⟩
  obtain ⟨a, ha, oa⟩ := h1
  obtain ⟨b, hb, ob⟩ := h2
  have := h { payload := [7] } _ a b ha hb
  rw [oa, ob] at this
  exact absurd this (by decide)

/-- C60: with an error result there is then no reply at all. -/
theorem C60_error_after_close_unanswered : ∃ w', serve (exServer { err := .request [69] [], closesMsg := true }) exWorld 1
    [.data [127, 1,2,3,4,5,6,7,8, 1, 97]] = .ok w' ∧ w'.net.out 1 = [] := ⟨_, rfl, rfl⟩

end Webwire
