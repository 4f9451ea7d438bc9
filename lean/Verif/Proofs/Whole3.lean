import Verif.Proofs.Whole2
import Verif.Props.Wire2
import Verif.Spec.WholeAnswer

/-! Helper lemmas about clients and the server together: what is read, and what is answered. -/

set_option autoImplicit false

namespace Webwire.Whole
open _root_.Webwire.Spec

variable {cfg : Cfg} {s s' : State}

theorem readMsg_ok {size : Nat} {bs : Bytes} {m : Msg} (h : readMsg size bs = some m) :
    bs.length ≤ size ∧ (newMessage size).readBytes bs = .ok (m, true, none) := by
  unfold readMsg at h
  have he : (newMessage size).readBytes bs = .ok (m, true, none) := by
    split at h
    · rename_i heq; cases h; exact heq
    · cases h
  refine ⟨?_, he⟩
  by_contra hlt
  obtain ⟨e, h1⟩ := C09_rejects_oversized (newMessage size) bs (by rw [newMessage_buf]; omega)
  rw [h1] at he
  cases he

theorem readMsg_type {size : Nat} {bs : Bytes} {m : Msg} (h : readMsg size bs = some m) : m.msgType = byteAt bs 0 ∧ bs ≠ [] := by
  obtain ⟨hl, he⟩ := readMsg_ok h
  have hne : bs ≠ [] := by
    rintro rfl
    simp [Msg.readBytes] at he
  obtain ⟨m', tp, e, h1, _, _, _, h5, _⟩ := readBytes_clean (clean_new size) hne (by rw [newMessage_buf]; exact hl)
  rw [he] at h1
  cases h1
  exact ⟨(h5 rfl).1, hne⟩

theorem readMsg_grammar {size : Nat} {bs : Bytes} {v : View} (hg : Grammar bs v) (hl : bs.length ≤ size) :
    ∃ m, readMsg size bs = some m ∧ m.shown = v ∧ m.payload.encoding = parserEncoding v.msgType ∧ m.len = bs.length ∧
      (v.msgType ∉ noIdentTypes → m.identifierBytes = v.ident) := by
  obtain ⟨m, h1, h2, h3, _, h5, h6⟩ := read_grammar (clean_new size) (by rw [newMessage_buf]; exact hl) hg
  exact ⟨m, by simp [readMsg, h1], h2, h3, h5, fun h => (h6 h).2⟩

theorem tells_other {b : Bytes} (h : ¬ IsReply b) : tells cfg b = none := by
  unfold tells
  cases hm : readMsg cfg.clientBuf b with
  | none => rfl
  | some m =>
    obtain ⟨ht, hne⟩ := readMsg_type hm
    obtain ⟨t, rest, rfl⟩ := List.exists_cons_of_ne_nil hne
    have hn : t ∉ ([0, 1, 2, 3, 4, 5, 191, 192, 193] : List UInt8) := fun hm => h ⟨t, rest, rfl, hm⟩
    have e : m.msgType = t := ht
    simp only [List.mem_cons, List.not_mem_nil, or_false, not_or] at hn
    obtain ⟨h0, h1, h2, h3, h4, h5, h6, h7, h8⟩ := hn
    simp [clientTells, e, h0, h1, h2, h3, h4, h5, h6, h7, h8]

/-- A result that can be sent is some outcome. -/
theorem result_of_replyFor {ident : Bytes} {out : RequestOut} {v : View} (h : ReplyFor ident out v) : ∃ o, Result out o := by
  cases h with
  | success h1 h2 => exact ⟨_, .success h1 h2⟩
  | error code text h1 h2 => exact ⟨_, .error code text h1 h2⟩
  | errorPtr code text h1 h2 => exact ⟨_, .errorPtr code text h1 h2⟩
  | internal h1 => exact ⟨_, .internal h1⟩

theorem tells_reply {ident : Bytes} {out : RequestOut} {call : WriterCall} (hid : ident.length = 8)
    (hc : replyCall ident out = some call) (hv : call.Valid) :
    (call.layout.length ≤ cfg.clientBuf → ∃ rep, tells cfg call.layout = some (ident, rep)) ∧
    ∀ k rep, tells cfg call.layout = some (k, rep) → k = ident ∧ Result out (outcomeOf rep) := by
  obtain ⟨v0, hv0⟩ := replyFor_of_call hc hv
  obtain ⟨o, ho⟩ := result_of_replyFor hv0
  obtain ⟨v, hf, hg⟩ := client_gets (ident := ident) ho
  obtain ⟨call', h1, _, h3⟩ := call_of_replyFor hf hid
  rw [hc] at h1
  cases h1
  have key : call.layout.length ≤ cfg.clientBuf → ∃ rep, tells cfg call.layout = some (ident, rep) ∧ outcomeOf rep = o := by
    intro hl
    obtain ⟨m', rep, e1, e2, e3⟩ := hg (newMessage cfg.clientBuf) _ (clean_new _) (by rw [newMessage_buf]; exact hl) h3
    exact ⟨rep, by simp [tells, readMsg, e1, e2], e3⟩
  refine ⟨fun hl => ?_, fun k rep ht => ?_⟩
  · obtain ⟨rep, h, _⟩ := key hl
    exact ⟨rep, h⟩
  · have hl : call.layout.length ≤ cfg.clientBuf := by
      unfold tells at ht
      obtain ⟨m, hm, _⟩ := Option.bind_eq_some_iff.mp ht
      exact (readMsg_ok hm).1
    obtain ⟨rep', h, h'⟩ := key hl
    rw [ht] at h
    cases h
    exact ⟨rfl, by rw [h']; exact ho⟩

theorem tells_special {ident : Bytes} {t : UInt8} (ht : t ∈ [1, 3, 4, 5]) (hid : ident.length = 8) :
    (9 ≤ cfg.clientBuf → tells cfg (t :: ident) = some (ident, .error (if t = 1 then .shutdown else .other t))) ∧
    ∀ k rep, tells cfg (t :: ident) = some (k, rep) → k = ident ∧ rep = .error (if t = 1 then .shutdown else .other t) := by
  have hg : Grammar (t :: ident) { msgType := t, ident := ident } := by
    have := Grammar.special t ident [] ?_ hid
    · simpa using this
    simp only [List.mem_cons, List.not_mem_nil, or_false] at ht ⊢
    tauto
  have key : 9 ≤ cfg.clientBuf → tells cfg (t :: ident) = some (ident, .error (if t = 1 then .shutdown else .other t)) := by
    intro hl
    obtain ⟨m, h1, h2, _⟩ := readMsg_grammar (size := cfg.clientBuf) hg (by simp [hid]; omega)
    have ht' : m.msgType = t := congrArg View.msgType h2
    have hi : m.ident = ident := congrArg View.ident h2
    simp only [tells, h1, Option.bind_some, clientTells, ht', hi]
    simp only [List.mem_cons, List.not_mem_nil, or_false] at ht
    rcases ht with rfl | rfl | rfl | rfl <;> simp
  refine ⟨key, fun k rep h => ?_⟩
  have hl : 9 ≤ cfg.clientBuf := by
    unfold tells at h
    obtain ⟨m, hm, _⟩ := Option.bind_eq_some_iff.mp h
    have := (readMsg_ok hm).1
    simp [hid] at this
    omega
  rw [key hl] at h
  cases h
  exact ⟨rfl, rfl⟩

theorem tells_shutdown {ident : Bytes} (hid : ident.length = 8) :
    (9 ≤ cfg.clientBuf → tells cfg (1 :: ident) = some (ident, .error .shutdown)) ∧
    ∀ k rep, tells cfg (1 :: ident) = some (k, rep) → k = ident ∧ rep = .error .shutdown := by
  simpa using tells_special (cfg := cfg) (t := 1) (by simp) hid

/-- The call that writes the reply. -/
def Out.call (ident : Bytes) : Out → Option WriterCall
  | .hook out => replyCall ident out
  | .session .disabled => some (.special 5 ident)
  | .session .full => some (.special 4 ident)
  | .session .failed => some (.special 2 ident)
  | .session .missing => some (.special 3 ident)
  | .session (.restored json) => some (.reply ident 1 json)
  | .session .closed => some (.reply ident 0 [])

/-- What the reply is made from: the message, unless the hook closed it. -/
def Out.after (m : Msg) (out : Out) : Msg := if out.closesMsg then m.close.1 else m

theorem tells_out {ident : Bytes} {out : Out} {call : WriterCall} (hid : ident.length = 8)
    (hc : out.call ident = some call) (hv : call.Valid) :
    (call.layout.length ≤ cfg.clientBuf → ∃ rep, tells cfg call.layout = some (ident, rep)) ∧
    ∀ k rep, tells cfg call.layout = some (k, rep) → k = ident ∧ Whole.Spec.Means out rep := by
  have special : ∀ t : UInt8, t ∈ [3, 4, 5] → call = .special t ident →
      (call.layout.length ≤ cfg.clientBuf → ∃ rep, tells cfg call.layout = some (ident, rep)) ∧
      ∀ k rep, tells cfg call.layout = some (k, rep) → k = ident ∧ rep = .error (.other t) := by
    rintro t ht rfl
    obtain ⟨h1, h2⟩ := tells_special (cfg := cfg) (t := t) (by simp at ht ⊢; tauto) hid
    have hne : t ≠ 1 := by rintro rfl; simp at ht
    simp only [hne, if_false] at h1 h2
    refine ⟨fun hl => ⟨_, h1 ?_⟩, h2⟩
    simpa [WriterCall.layout, hid] using hl
  cases out with
  | hook out => exact tells_reply hid hc hv
  | session out =>
    cases out with
    | disabled => exact special 5 (by simp) (by cases hc; rfl)
    | full => exact special 4 (by simp) (by cases hc; rfl)
    | missing => exact special 3 (by simp) (by cases hc; rfl)
    | failed =>
      obtain ⟨h1, h2⟩ := tells_reply (cfg := cfg) (out := { err := .other "" }) hid hc hv
      refine ⟨h1, fun k rep ht => ⟨(h2 k rep ht).1, ?_⟩⟩
      have := (h2 k rep ht).2
      generalize hg : outcomeOf rep = o at this
      cases this with
      | internal => exact hg
      | success h => cases h
      | error _ _ h => cases h
      | errorPtr _ _ h => cases h
    | restored json =>
      obtain ⟨h1, h2⟩ := tells_reply (cfg := cfg) (out := { enc := 1, payload := json }) hid hc hv
      refine ⟨h1, fun k rep ht => ⟨(h2 k rep ht).1, ?_⟩⟩
      have := (h2 k rep ht).2
      generalize hg : outcomeOf rep = o at this
      cases this with
      | success => exact hg
      | error _ _ h => cases h
      | errorPtr _ _ h => cases h
      | internal h => exact absurd h (by simp [_root_.Webwire.Spec.Internal])
    | closed =>
      obtain ⟨h1, h2⟩ := tells_reply (cfg := cfg) (out := {}) hid hc hv
      refine ⟨h1, fun k rep ht => ⟨(h2 k rep ht).1, ?_⟩⟩
      have := (h2 k rep ht).2
      generalize hg : outcomeOf rep = o at this
      cases this with
      | success => exact hg
      | error _ _ h => cases h
      | errorPtr _ _ h => cases h
      | internal h => exact absurd h (by simp [_root_.Webwire.Spec.Internal])

/-- There is a reply for each result that can be sent. -/
theorem call_of_sendable {ident : Bytes} {out : Out} (hid : ident.length = 8) (h : Whole.Spec.Sendable out) :
    ∃ call, out.call ident = some call ∧ call.Valid := by
  cases out with
  | hook out =>
    obtain ⟨v, hvr⟩ := answerable_any h ident
    obtain ⟨wc, hwc, hvalid, _⟩ := call_of_replyFor hvr hid
    exact ⟨wc, hwc, hvalid⟩
  | session out => cases out <;> exact ⟨_, rfl, by simp [WriterCall.Valid]⟩

theorem withWriter_world {c : ConnId} {up : Bool} {w' : World Net Unit} {e : Option Err} {call : WriterCall}
    (hs : ideal cfg.srv) (hp : ¬ call.Panics)
    (h : withWriter cfg.srv (world up) c (fun wr s => call.run wr s) = .ok (w', e)) :
    (w'.net.out c = [] ∨ (call.Valid ∧ w'.net.out c = [call.layout])) ∧
    (up = true → call.Valid → w'.net.out c = [call.layout]) := by
  rcases withWriter_ok h with ⟨net, er, hg, rfl, _⟩ | ⟨net, net', hg, hf, rfl⟩
  · rw [hs] at hg
    cases up with
    | true => simp [netSockets, world] at hg
    | false =>
      simp [netSockets, world] at hg
      obtain ⟨rfl, -⟩ := hg
      exact ⟨.inl rfl, by simp⟩
  · rw [hs] at hg hf
    cases up with
    | false => simp [netSockets, world] at hg
    | true =>
      simp only [netSockets, world, if_true, Except.ok.injEq, Prod.mk.injEq, and_true] at hg
      rw [← hg] at hf
      by_cases hv : call.Valid
      · rw [call_ideal c _ call hv hp rfl] at hf
        simp only [Except.ok.injEq, Prod.mk.injEq] at hf
        rw [← hf.1]
        simp [World.log, Net.deliver, hv]
      · obtain ⟨er, he⟩ := call_ideal_invalid c { connected := fun _ => true } call hv rfl
        rw [he] at hf
        simp only [Except.ok.injEq, Prod.mk.injEq] at hf
        rw [← hf.1]
        simp [World.log, hv]

theorem replyCall_not_panics {ident : Bytes} {out : RequestOut} {call : WriterCall} (h : replyCall ident out = some call) :
    ¬ call.Panics := by
  unfold replyCall at h
  split at h <;> cases h <;> simp [WriterCall.Panics]

theorem outcall_not_panics {ident : Bytes} {out : Out} {call : WriterCall} (h : out.call ident = some call) : ¬ call.Panics := by
  cases out with
  | hook out => exact replyCall_not_panics h
  | session out => cases out <;> cases h <;> simp [WriterCall.Panics]

/-- What is sent for what the handler came to. -/
theorem answers_ok {c : ConnId} {m : Msg} {out : Out} {up : Bool} {bs : List Bytes} (hs : ideal cfg.srv)
    (h : answers cfg c m out up = .ok bs) :
    (bs = [] ∨ ∃ call, out.call (out.after m).identifierBytes = some call ∧ call.Valid ∧ bs = [call.layout]) ∧
    ∀ call, up = true → (out.after m).requiresReply = true →
      out.call (out.after m).identifierBytes = some call → call.Valid → bs = [call.layout] := by
  unfold answers at h
  obtain ⟨w, h', hb⟩ := bind_ok h
  clear h
  rename' h' => h
  simp only [pure, Except.pure, Except.ok.injEq] at hb
  subst hb
  have fin : ∀ call e, out.call (out.after m).identifierBytes = some call →
      withWriter cfg.srv (world up) c (fun wr s => call.run wr s) = .ok (w, e) →
      (w.net.out c = [] ∨ ∃ call, out.call (out.after m).identifierBytes = some call ∧ call.Valid ∧
        w.net.out c = [call.layout]) ∧
      ∀ call, up = true → (out.after m).requiresReply = true →
        out.call (out.after m).identifierBytes = some call → call.Valid → w.net.out c = [call.layout] := by
    intro call e hc hw
    obtain ⟨h1, h2⟩ := withWriter_world hs (outcall_not_panics hc) hw
    refine ⟨h1.imp id fun h => ⟨call, hc, h.1, h.2⟩, fun call' hu _ hc' hv => ?_⟩
    rw [hc] at hc'
    cases hc'
    exact h2 hu hv
  have err : ∀ re, failMsg cfg.srv (world up) c (out.after m) re = .ok w →
      (∀ code text, errorFor re = some (code, text) →
        out.call (out.after m).identifierBytes = some (.errorReply (out.after m).identifierBytes code text true)) →
      (re = .requestPtr none → out.call (out.after m).identifierBytes = none) →
      (errorFor re = none → re ≠ .requestPtr none →
        out.call (out.after m).identifierBytes = some (.special (specialFor re) (out.after m).identifierBytes)) →
      (w.net.out c = [] ∨ ∃ call, out.call (out.after m).identifierBytes = some call ∧ call.Valid ∧
        w.net.out c = [call.layout]) ∧
      ∀ call, up = true → (out.after m).requiresReply = true →
        out.call (out.after m).identifierBytes = some call → call.Valid → w.net.out c = [call.layout] := by
    intro re h h1 h2 h3
    rcases failMsg_ok h with ⟨hq, rfl⟩ | ⟨_, ⟨e, code, text, he, h⟩ | ⟨he, net, er, hg, rfl⟩ | ⟨he, hn, e, h⟩⟩
    · refine ⟨.inl rfl, fun _ _ hr => ?_⟩
      rw [hq] at hr; cases hr
    · exact fin _ _ (h1 _ _ he) h
    · refine ⟨.inl rfl, fun call _ _ hc => ?_⟩
      rw [h2 he] at hc; cases hc
    · exact fin _ _ (h3 he hn) h
  cases out with
  | session out =>
    change answerSession cfg.srv (world up) c (Out.after m (.session out)) out = .ok w at h
    cases out with
    | disabled => exact err .sessionsDisabled h (by simp [errorFor]) (by simp) fun _ _ => rfl
    | full => exact err .maxSessConnsReached h (by simp [errorFor]) (by simp) fun _ _ => rfl
    | failed => exact err .nil h (by simp [errorFor]) (by simp) fun _ _ => rfl
    | missing => exact err .sessionNotFound h (by simp [errorFor]) (by simp) fun _ _ => rfl
    | restored json =>
      obtain ⟨e, h⟩ := fulfillMsg_ok (enc := 1) (payload := json) h
      exact fin (.reply _ 1 json) e rfl h
    | closed =>
      obtain ⟨e, h⟩ := fulfillMsg_ok (enc := 0) (payload := []) h
      exact fin (.reply _ 0 []) e rfl h
  | hook out =>
  change answerRequest cfg.srv (world up) c (Out.after m (.hook out)) out = .ok w at h
  unfold answerRequest at h
  cases he : out.err with
  | nil =>
    rw [he] at h
    obtain ⟨e, h⟩ := fulfillMsg_ok h
    exact fin (.reply _ out.enc out.payload) e (by simp only [Out.call, replyCall, he]) h
  | request code text =>
    rw [he] at h
    exact err _ h (fun c t hct => by cases hct; simp only [Out.call, replyCall, he]) (by simp) (by simp [errorFor])
  | requestPtr p =>
    rw [he] at h
    cases p with
    | none => exact err _ h (by simp [errorFor]) (by simp [Out.call, replyCall, he]) (by simp)
    | some p =>
      obtain ⟨code, text⟩ := p
      exact err _ h (fun c t hct => by cases hct; simp only [Out.call, replyCall, he]) (by simp) (by simp [errorFor])
  | maxSessConnsReached | sessionNotFound | sessionsDisabled | other t =>
    rw [he] at h
    exact err _ h (by simp [errorFor]) (by simp) (fun _ _ => by simp only [Out.call, replyCall, he]; rfl)

theorem refusal_ok {c : ConnId} {m : Msg} {bs : List Bytes} (hs : ideal cfg.srv) (h : refusal cfg c m = .ok bs) :
    bs = [1 :: m.identifierBytes] := by
  unfold refusal at h
  obtain ⟨w, h', hb⟩ := bind_ok h
  clear h
  rename' h' => h
  simp only [pure, Except.pure, Except.ok.injEq] at hb
  subst hb
  obtain ⟨net, net', e, hg, hf, rfl⟩ := failMsgShutdown_ok h
  have hw : withWriter cfg.srv (world true) c (fun wr s => (WriterCall.special 1 m.identifierBytes).run wr s) =
      .ok ({ world true with net := net' }.log (.sent c), e) := by
    unfold withWriter
    rw [hg]
    simp only [bind, Except.bind, WriterCall.run]
    rw [show (1 : UInt8) = MsgReplyShutdown from rfl, hf]
    rfl
  exact (withWriter_world hs (by simp [WriterCall.Panics]) hw).2 rfl (by simp [WriterCall.Valid])

end Webwire.Whole
